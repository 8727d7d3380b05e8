import Verif.Model.Bst
import Verif.Gen.Read8
-- generated by tools/gen_codec.py; do not edit
namespace Verif.Gen
open Verif Verif.Model

def readTable00 : Bst (RBody) :=
 (.node (.node (.node (.node (.node .nil
     k!"readSd_Sd" ⟨k!"Sd", R.readSd_Sd⟩
     .nil)
    k!"readTt_Tt" ⟨k!"Tt", R.readTt_Tt⟩
    .nil)
   k!"getSdg_Sdg" ⟨k!"Sdg", R.getSdg_Sdg⟩
   (.node .nil
    k!"readSdf_Sdf" ⟨k!"Sdf", R.readSdf_Sdf⟩
    .nil))
  k!"getNote_Note" ⟨k!"Note", R.getNote_Note⟩
  (.node (.node (.node .nil
     k!"readARPackage" ⟨k!"ARPackage", R.readARPackage⟩
     .nil)
    k!"getCompu_Compu" ⟨k!"Compu", R.getCompu_Compu⟩
    .nil)
   k!"getTpPort_TpPort" ⟨k!"TpPort", R.getTpPort_TpPort⟩
   (.node .nil
    k!"readLinker_Linker" ⟨k!"Linker", R.readLinker_Linker⟩
    .nil)))
 k!"readTopic1_Topic1" ⟨k!"Topic1", R.readTopic1_Topic1⟩
 (.node (.node (.node (.node .nil
     k!"getCaption_Caption" ⟨k!"Caption", R.getCaption_Caption⟩
     .nil)
    k!"getDefItem_DefItem" ⟨k!"DefItem", R.getDefItem_DefItem⟩
    .nil)
   k!"getDefList_DefList" ⟨k!"DefList", R.getDefList_DefList⟩
   (.node .nil
    k!"getGraphic_Graphic" ⟨k!"Graphic", R.getGraphic_Graphic⟩
    .nil))
  k!"readChapter_Chapter" ⟨k!"Chapter", R.readChapter_Chapter⟩
  (.node (.node (.node .nil
     k!"getSwValues_SwValues" ⟨k!"SwValues", R.getSwValues_SwValues⟩
     .nil)
    k!"getMlFigures_MlFigure" ⟨k!"MlFigure", R.getMlFigures_MlFigure⟩
    .nil)
   k!"getMlFormula_LGraphic" ⟨k!"LGraphic", R.getMlFormula_LGraphic⟩
   (.node .nil
    k!"readCompiler_Compiler" ⟨k!"Compiler", R.readLinker_Linker⟩
    .nil))))

def readTable01 : Bst (RBody) :=
 (.node (.node (.node (.node (.node .nil
     k!"getListElements_ARList" ⟨k!"ARList", R.getListElements_ARList⟩
     .nil)
    k!"getMlFormula_MlFormula" ⟨k!"MlFormula", R.getMlFormula_MlFormula⟩
    .nil)
   k!"getValueList_ValueList" ⟨k!"ValueList", R.getValueList_ValueList⟩
   (.node .nil
    k!"readCodeDescriptor_Code" ⟨k!"Code", R.readCodeDescriptor_Code⟩
    .nil))
  k!"readLLongName_LLongName" ⟨k!"LLongName", R.readLLongName_LLongName⟩
  (.node (.node (.node .nil
     k!"readPortGroup_PortGroup" ⟨k!"PortGroup", R.readPortGroup_PortGroup⟩
     .nil)
    k!"getCompuConst_CompuConst" ⟨k!"CompuConst", R.getCompuConst_CompuConst⟩
    .nil)
   k!"getDataFilter_DataFilter" ⟨k!"DataFilter", R.getDataFilter_DataFilter⟩
   (.node .nil
    k!"getDoIpEntity_DoIpEntity" ⟨k!"DoIpEntity", R.getDoIpEntity_DoIpEntity⟩
    .nil)))
 k!"getMsrQueryP2_MsrQueryP2" ⟨k!"MsrQueryP2", R.getMsrQueryP2_MsrQueryP2⟩
 (.node (.node (.node (.node .nil
     k!"getSoAdConfig_SoAdConfig" ⟨k!"SoAdConfig", R.getSoAdConfig_SoAdConfig⟩
     .nil)
    k!"readARPackages_ARPackage" ⟨k!"ARPackage", R.readARPackages_ARPackage⟩
    .nil)
   k!"getAnnotations_Annotation" ⟨k!"Annotation", R.getAnnotations_Annotation⟩
   (.node .nil
    k!"getCompuScales_CompuScale" ⟨k!"CompuScale", R.getCompuScales_CompuScale⟩
    .nil))
  k!"getLParagraphs_LParagraph" ⟨k!"LParagraph", R.getLParagraphs_LParagraph⟩
  (.node (.node (.node .nil
     k!"readIndexEntry_IndexEntry" ⟨k!"IndexEntry", R.readIndexEntry_IndexEntry⟩
     .nil)
    k!"readMsrQueryP1_MsrQueryP1" ⟨k!"MsrQueryP1", R.readBuildActionManifests⟩
    .nil)
   k!"readSdgCaption_SdgCaption" ⟨k!"SdgCaption", R.readSdgCaption_SdgCaption⟩
   (.node .nil
    k!"getCompuScales_CompuScales" ⟨k!"CompuScales", R.getCompuScales_CompuScales⟩
    .nil))))

def readTable02 : Bst (RBody) :=
 .node readTable00 k!"getAdminData_AdminData" ⟨k!"AdminData", R.getAdminData_AdminData⟩ readTable01

def readTable03 : Bst (RBody) :=
 (.node (.node (.node (.node (.node .nil
     k!"getLabeledList_LabeledList" ⟨k!"LabeledList", R.getLabeledList_LabeledList⟩
     .nil)
    k!"getMsrQueryArg_MsrQueryArg" ⟨k!"MsrQueryArg", R.getMsrQueryArg_MsrQueryArg⟩
    .nil)
   k!"getSwTextProps_SwTextProps" ⟨k!"SwTextProps", R.getSwTextProps_SwTextProps⟩
   (.node .nil
    k!"getSwValueCont_SwValueCont" ⟨k!"SwValueCont", R.getSwValueCont_SwValueCont⟩
    .nil))
  k!"readARPackageElements_NPdu" ⟨k!"NPdu", R.readARPackageElements_NPdu⟩
  (.node (.node (.node .nil
     k!"readARPackageElements_Unit" ⟨k!"Unit", R.readARPackageElements_Unit⟩
     .nil)
    k!"readNmConfigNmIfEcus_NmEcu" ⟨k!"NmEcu", R.readNmConfigNmIfEcus_NmEcu⟩
    .nil)
   k!"getIPduMappings_IPduMapping" ⟨k!"IPduMapping", R.getIPduMappings_IPduMapping⟩
   (.node .nil
    k!"readARPackageElements_NmPdu" ⟨k!"NmPdu", R.readARPackageElements_NmPdu⟩
    .nil)))
 k!"readPhysConstrs_PhysConstrs" ⟨k!"PhysConstrs", R.readPhysConstrs_PhysConstrs⟩
 (.node (.node (.node (.node .nil
     k!"readScaleConstr_ScaleConstr" ⟨k!"ScaleConstr", R.readScaleConstr_ScaleConstr⟩
     .nil)
    k!"getCyclicTiming_CyclicTiming" ⟨k!"CyclicTiming", R.getCyclicTiming_CyclicTiming⟩
    .nil)
   k!"getIndentSample_IndentSample" ⟨k!"IndentSample", R.getIndentSample_IndentSample⟩
   (.node .nil
    k!"getSwCalprmAxis_SwCalprmAxis" ⟨k!"SwCalprmAxis", R.getSwCalprmAxis_SwCalprmAxis⟩
    .nil))
  k!"readARPackageElements_HwType" ⟨k!"HwType", R.readARPackageElements_HwType⟩
  (.node (.node (.node .nil
     k!"readARPackageElements_System" ⟨k!"System", R.readARPackageElements_System⟩
     .nil)
    k!"readDataTypeMaps_DataTypeMap" ⟨k!"DataTypeMap", R.readDataTypeMaps_DataTypeMap⟩
    .nil)
   k!"readARPackageElements_DcmIPdu" ⟨k!"DcmIPdu", R.readARPackageElements_DcmIPdu⟩
   (.node .nil
    k!"readARPackageElements_FlatMap" ⟨k!"FlatMap", R.readARPackageElements_FlatMap⟩
    .nil))))

def readTable04 : Bst (RBody) :=
 (.node (.node (.node (.node (.node .nil
     k!"readARPackageElements_ISignal" ⟨k!"ISignal", R.readARPackageElements_ISignal⟩
     .nil)
    k!"readARPackageElements_McGroup" ⟨k!"McGroup", R.readARPackageElements_McGroup⟩
    .nil)
   k!"readChapterModel_ChapterModel" ⟨k!"ChapterModel", R.readChapterModel_ChapterModel⟩
   (.node .nil
    k!"readEmphasisText_EmphasisText" ⟨k!"EmphasisText", R.readEmphasisText_EmphasisText⟩
    .nil))
  k!"readHeapUsage_SoftwareContext" ⟨k!"SoftwareContext", R.readHeapUsage_SoftwareContext⟩
  (.node (.node (.node .nil
     k!"readISignalProps_ISignalProps" ⟨k!"ISignalProps", R.readISignalProps_ISignalProps⟩
     .nil)
    k!"readMcGroup_McGroupDataRefSet" ⟨k!"McGroupDataRefSet", R.readMcGroup_McGroupDataRefSet⟩
    .nil)
   k!"readTopicContent_TopicContent" ⟨k!"TopicContent", R.readTopicContent_TopicContent⟩
   (.node .nil
    k!"getClientComSpec_ClientComSpec" ⟨k!"ClientComSpec", R.getClientComSpec_ClientComSpec⟩
    .nil)))
 k!"getMsrQueryProps_MsrQueryProps" ⟨k!"MsrQueryProps", R.getMsrQueryProps_MsrQueryProps⟩
 (.node (.node (.node (.node .nil
     k!"getRuleArguments_RuleArguments" ⟨k!"RuleArguments", R.getRuleArguments_RuleArguments⟩
     .nil)
    k!"getServerComSpec_ServerComSpec" ⟨k!"ServerComSpec", R.getServerComSpec_ServerComSpec⟩
    .nil)
   k!"getStructuredReq_StructuredReq" ⟨k!"StructuredReq", R.getStructuredReq_StructuredReq⟩
   (.node .nil
    k!"getSwAxisGeneric_SwAxisGeneric" ⟨k!"SwAxisGeneric", R.getSwAxisGeneric_SwAxisGeneric⟩
    .nil))
  k!"getSwAxisGrouped_SwAxisGrouped" ⟨k!"SwAxisGrouped", R.getSwAxisGrouped_SwAxisGrouped⟩
  (.node (.node (.node .nil
     k!"getTargetIPduRef_TargetIPduRef" ⟨k!"TargetIPduRef", R.getTargetIPduRef_TargetIPduRef⟩
     .nil)
    k!"getTimeRangeType_TimeRangeType" ⟨k!"TimeRangeType", R.getTimeRangeType_TimeRangeType⟩
    .nil)
   k!"getTraceableText_TraceableText" ⟨k!"TraceableText", R.getTraceableText_TraceableText⟩
   (.node .nil
    k!"readARPackageElements_CanFrame" ⟨k!"CanFrame", R.readARPackageElements_CanFrame⟩
    .nil))))

def readTable05 : Bst (RBody) :=
 .node readTable03 k!"readARPackageElements_Gateway" ⟨k!"Gateway", R.readARPackageElements_Gateway⟩ readTable04

def readTable06 : Bst (RBody) :=
 .node readTable02 k!"getLabeledItem_LabeledItem" ⟨k!"LabeledItem", R.getLabeledItem_LabeledItem⟩ readTable05

def readTable07 : Bst (RBody) :=
 (.node (.node (.node (.node (.node .nil
     k!"readCanTpConfigTpEcus_CanTpEcu" ⟨k!"CanTpEcu", R.readCanTpConfigTpEcus_CanTpEcu⟩
     .nil)
    k!"readKeywordSetKeywords_Keyword" ⟨k!"Keyword", R.readKeywordSetKeywords_Keyword⟩
    .nil)
   k!"readNmClusterNmNodes_CanNmNode" ⟨k!"CanNmNode", R.readNmClusterNmNodes_CanNmNode⟩
   (.node .nil
    k!"readNmClusterNmNodes_UdpNmNode" ⟨k!"UdpNmNode", R.readNmClusterNmNodes_UdpNmNode⟩
    .nil))
  k!"readRptComponent_RptImplPolicy" ⟨k!"RptImplPolicy", R.readRptComponent_RptImplPolicy⟩
  (.node (.node (.node .nil
     k!"readARPackageElements_HwElement" ⟨k!"HwElement", R.readARPackageElements_HwElement⟩
     .nil)
    k!"readARPackageElements_SwcTiming" ⟨k!"SwcTiming", R.readARPackageElements_SwcTiming⟩
    .nil)
   k!"readAccessCountSets_AccessCount" ⟨k!"AccessCount", R.readAccessCountSets_AccessCount⟩
   (.node .nil
    k!"readBusDependentNmEcus_UdpNmEcu" ⟨k!"UdpNmEcu", R.readBusDependentNmEcus_UdpNmEcu⟩
    .nil)))
 k!"readIdentifiable_VariationPoint" ⟨k!"VariationPoint", R.readIdentifiable_VariationPoint⟩
 (.node (.node (.node (.node .nil
     k!"readRptSupportData_RptComponent" ⟨k!"RptComponent", R.readRptSupportData_RptComponent⟩
     .nil)
    k!"getAnyInstanceRef_AnyInstanceRef" ⟨k!"AnyInstanceRef", R.getAnyInstanceRef_AnyInstanceRef⟩
    .nil)
   k!"getSdClientConfig_SdClientConfig" ⟨k!"SdClientConfig", R.getSdClientConfig_SdClientConfig⟩
   (.node .nil
    k!"getSdServerConfig_SdServerConfig" ⟨k!"SdServerConfig", R.getSdServerConfig_SdServerConfig⟩
    .nil))
  k!"getSwDataDefProps_SwDataDefProps" ⟨k!"SwDataDefProps", R.getSwDataDefProps_SwDataDefProps⟩
  (.node (.node (.node .nil
     k!"readARPackageElements_CanCluster" ⟨k!"CanCluster", R.readARPackageElements_CanCluster⟩
     .nil)
    k!"readARPackageElements_Collection" ⟨k!"Collection", R.readARPackageElements_Collection⟩
    .nil)
   k!"readARPackageElements_DataConstr" ⟨k!"DataConstr", R.readARPackageElements_DataConstr⟩
   (.node .nil
    k!"readARPackageElements_HwCategory" ⟨k!"HwCategory", R.readARPackageElements_HwCategory⟩
    .nil))))

def readTable08 : Bst (RBody) :=
 (.node (.node (.node (.node (.node .nil
     k!"readARPackageElements_LinCluster" ⟨k!"LinCluster", R.readARPackageElements_LinCluster⟩
     .nil)
    k!"readARPackageElements_McFunction" ⟨k!"McFunction", R.readARPackageElements_McFunction⟩
    .nil)
   k!"readARPackageElements_SwBaseType" ⟨k!"SwBaseType", R.readARPackageElements_SwBaseType⟩
   (.node .nil
    k!"readCanTpConfigTpNodes_CanTpNode" ⟨k!"CanTpNode", R.readCanTpConfigTpNodes_CanTpNode⟩
    .nil))
  k!"readHeapUsages_MeasuredHeapUsage" ⟨k!"MeasuredHeapUsage", R.readHeapUsages_MeasuredHeapUsage⟩
  (.node (.node (.node .nil
     k!"readImplementation_McSupportData" ⟨k!"McSupportData", R.readImplementation_McSupportData⟩
     .nil)
    k!"readLinTpConfigTpNodes_LinTpNode" ⟨k!"LinTpNode", R.readLinTpConfigTpNodes_LinTpNode⟩
    .nil)
   k!"readMcSupportData_McDataInstance" ⟨k!"McDataInstance", R.readMcSupportData_McDataInstance⟩
   (.node .nil
    k!"readMcSupportData_RptSupportData" ⟨k!"RptSupportData", R.readMcSupportData_RptSupportData⟩
    .nil)))
 k!"readMemorySections_MemorySection" ⟨k!"MemorySection", R.readMemorySections_MemorySection⟩
 (.node (.node (.node (.node .nil
     k!"readNmClusterNmNodes_J1939NmNode" ⟨k!"J1939NmNode", R.readNmClusterNmNodes_J1939NmNode⟩
     .nil)
    k!"readReferenceBases_ReferenceBase" ⟨k!"ReferenceBase", R.readReferenceBases_ReferenceBase⟩
    .nil)
   k!"readReferrable_ShortNameFragment" ⟨k!"ShortNameFragment", R.readReferrable_ShortNameFragment⟩
   (.node .nil
    k!"readSystemMappings_SystemMapping" ⟨k!"SystemMapping", R.readSystemMappings_SystemMapping⟩
    .nil))
  k!"getISignalMappings_ISignalMapping" ⟨k!"ISignalMapping", R.getISignalMappings_ISignalMapping⟩
  (.node (.node (.node .nil
     k!"readARPackageElements_CanTpConfig" ⟨k!"CanTpConfig", R.readARPackageElements_CanTpConfig⟩
     .nil)
    k!"readARPackageElements_CompuMethod" ⟨k!"CompuMethod", R.readARPackageElements_CompuMethod⟩
    .nil)
   k!"readARPackageElements_EcuInstance" ⟨k!"EcuInstance", R.readARPackageElements_EcuInstance⟩
   (.node .nil
    k!"readARPackageElements_ISignalIPdu" ⟨k!"ISignalIPdu", R.readARPackageElements_ISignalIPdu⟩
    .nil))))

def readTable09 : Bst (RBody) :=
 .node readTable07 k!"readARPackageElements_KeywordSet" ⟨k!"KeywordSet", R.readARPackageElements_KeywordSet⟩ readTable08

def readTable10 : Bst (RBody) :=
 (.node (.node (.node (.node (.node .nil
     k!"readARPackageElements_SecuredIPdu" ⟨k!"SecuredIPdu", R.readARPackageElements_SecuredIPdu⟩
     .nil)
    k!"readChapterContent_ChapterContent" ⟨k!"ChapterContent", R.readChapterContent_ChapterContent⟩
    .nil)
   k!"readDataConstrRule_DataConstrRule" ⟨k!"DataConstrRule", R.readDataConstrRule_DataConstrRule⟩
   (.node .nil
    k!"readEcucQuery_EcucQueryExpression" ⟨k!"EcucQueryExpression", R.readEcucQuery_EcucQueryExpression⟩
    .nil))
  k!"readErrorTracerNeeds_RuntimeError" ⟨k!"RuntimeError", R.readErrorTracerNeeds_RuntimeError⟩
  (.node (.node (.node .nil
     k!"readHeapUsages_WorstCaseHeapUsage" ⟨k!"WorstCaseHeapUsage", R.readHeapUsages_WorstCaseHeapUsage⟩
     .nil)
    k!"readHwPinConnector_HwPinConnector" ⟨k!"HwPinConnector", R.readHwPinConnector_HwPinConnector⟩
    .nil)
   k!"readMcDataInstance_SwDataDefProps" ⟨k!"SwDataDefProps", R.readBuildActionManifests⟩
   (.node .nil
    k!"readMsrQueryTopic1_MsrQueryTopic1" ⟨k!"MsrQueryTopic1", R.readMsrQueryTopic1_MsrQueryTopic1⟩
    .nil)))
 k!"getLifeCyclePeriod_LifeCyclePeriod" ⟨k!"LifeCyclePeriod", R.getLifeCyclePeriod_LifeCyclePeriod⟩
 (.node (.node (.node (.node .nil
     k!"getMultiLanguageVerbatim_LVerbatim" ⟨k!"LVerbatim", R.getLParagraphs_LParagraph⟩
     .nil)
    k!"getNumericalOrText_NumericalOrText" ⟨k!"NumericalOrText", R.getNumericalOrText_NumericalOrText⟩
    .nil)
   k!"getSwRecordLayoutV_SwRecordLayoutV" ⟨k!"SwRecordLayoutV", R.getSwRecordLayoutV_SwRecordLayoutV⟩
   (.node .nil
    k!"readARPackageElements_DoIpTpConfig" ⟨k!"DoIpTpConfig", R.readARPackageElements_DoIpTpConfig⟩
    .nil))
  k!"readARPackageElements_FlexrayFrame" ⟨k!"FlexrayFrame", R.readARPackageElements_CanFrame⟩
  (.node (.node (.node .nil
     k!"readARPackageElements_ISignalGroup" ⟨k!"ISignalGroup", R.readARPackageElements_ISignalGroup⟩
     .nil)
    k!"readARPackageElements_SwAddrMethod" ⟨k!"SwAddrMethod", R.readARPackageElements_SwAddrMethod⟩
    .nil)
   k!"readARPackageElements_SystemSignal" ⟨k!"SystemSignal", R.readARPackageElements_SystemSignal⟩
   (.node .nil
    k!"readAccessCountSets_AccessCountSet" ⟨k!"AccessCountSet", R.readAccessCountSets_AccessCountSet⟩
    .nil))))

def readTable11 : Bst (RBody) :=
 (.node (.node (.node (.node (.node .nil
     k!"readNvBlockDescriptor_NvBlockNeeds" ⟨k!"NvBlockNeeds", R.readNvBlockDescriptor_NvBlockNeeds⟩
     .nil)
    k!"readReceiverComSpec_VariableAccess" ⟨k!"VariableAccess", R.readReceiverComSpec_VariableAccess⟩
    .nil)
   k!"readRptSupportData_RptServicePoint" ⟨k!"RptServicePoint", R.readRptSupportData_RptServicePoint⟩
   (.node .nil
    k!"readStackUsages_MeasuredStackUsage" ⟨k!"MeasuredStackUsage", R.readStackUsages_MeasuredStackUsage⟩
    .nil))
  k!"readTpConnection_TpConnectionIdent" ⟨k!"TpConnectionIdent", R.readTpConnection_TpConnectionIdent⟩
  (.node (.node (.node .nil
     k!"getClientComSpec_ClientComSpec_port" ⟨k!"ClientComSpec", R.getClientComSpec_ClientComSpec_port⟩
     .nil)
    k!"readARPackageElements_Documentation" ⟨k!"Documentation", R.readARPackageElements_Documentation⟩
    .nil)
   k!"readARPackageElements_EcucModuleDef" ⟨k!"EcucModuleDef", R.readARPackageElements_EcucModuleDef⟩
   (.node .nil
    k!"readARPackageElements_SwSystemconst" ⟨k!"SwSystemconst", R.readARPackageElements_SwSystemconst⟩
    .nil)))
 k!"readARPackageElements_SwcBswMapping" ⟨k!"SwcBswMapping", R.readARPackageElements_SwcBswMapping⟩
 (.node (.node (.node (.node .nil
     k!"readErrorTracerNeeds_TransientFault" ⟨k!"TransientFault", R.readErrorTracerNeeds_TransientFault⟩
     .nil)
    k!"readHeapUsage_HardwareConfiguration" ⟨k!"HardwareConfiguration", R.readHeapUsage_HardwareConfiguration⟩
    .nil)
   k!"readHwElementHwPinGroups_HwPinGroup" ⟨k!"HwPinGroup", R.readHwElementHwPinGroups_HwPinGroup⟩
   (.node .nil
    k!"readInternalConstrs_InternalConstrs" ⟨k!"InternalConstrs", R.readInternalConstrs_InternalConstrs⟩
    .nil))
  k!"readMcFunction_McFunctionDataRefSet" ⟨k!"McFunctionDataRefSet", R.readMcFunction_McFunctionDataRefSet⟩
  (.node (.node .nil
    k!"readMsrQueryChapter_MsrQueryChapter" ⟨k!"MsrQueryChapter", R.readMsrQueryTopic1_MsrQueryTopic1⟩
    .nil)
   k!"readNmConfigNmClusters_CanNmCluster" ⟨k!"CanNmCluster", R.readNmConfigNmClusters_CanNmCluster⟩
   (.node .nil
    k!"readNmConfigNmClusters_UdpNmCluster" ⟨k!"UdpNmCluster", R.readNmConfigNmClusters_UdpNmCluster⟩
    .nil))))

def readTable12 : Bst (RBody) :=
 .node readTable10 k!"readInternalBehavior_ExclusiveArea" ⟨k!"ExclusiveArea", R.readSdgCaption_SdgCaption⟩ readTable11

def readTable13 : Bst (RBody) :=
 .node readTable09 k!"readARPackageElements_LinTpConfig" ⟨k!"LinTpConfig", R.readARPackageElements_LinTpConfig⟩ readTable12

def readTable14 : Bst (RBody) :=
 .node readTable06 k!"readARPackageElements_NmConfig" ⟨k!"NmConfig", R.readARPackageElements_NmConfig⟩ readTable13

def readTable15 : Bst (RBody) :=
 (.node (.node (.node (.node (.node .nil
     k!"readStackUsages_WorstCaseStackUsage" ⟨k!"WorstCaseStackUsage", R.readStackUsages_WorstCaseStackUsage⟩
     .nil)
    k!"_readVariableAccesses_VariableAccess" ⟨k!"VariableAccess", R._readVariableAccesses_VariableAccess⟩
    .nil)
   k!"getApplicationEntry_ApplicationEntry" ⟨k!"ApplicationEntry", R.getApplicationEntry_ApplicationEntry⟩
   (.node .nil
    k!"getBufferProperties_BufferProperties" ⟨k!"BufferProperties", R.getBufferProperties_BufferProperties⟩
    .nil))
  k!"getNvProvideComSpec_NvProvideComSpec" ⟨k!"NvProvideComSpec", R.getNvProvideComSpec_NvProvideComSpec⟩
  (.node (.node (.node .nil
     k!"getNvRequireComSpec_NvRequireComSpec" ⟨k!"NvRequireComSpec", R.getNvRequireComSpec_NvRequireComSpec⟩
     .nil)
    k!"getSocketConnection_SocketConnection" ⟨k!"SocketConnection", R.getSocketConnection_SocketConnection⟩
    .nil)
   k!"getSwAxisIndividual_SwAxisIndividual" ⟨k!"SwAxisIndividual", R.getSwAxisIndividual_SwAxisIndividual⟩
   (.node .nil
    k!"getTextTableMapping_TextTableMapping" ⟨k!"TextTableMapping", R.getTextTableMapping_TextTableMapping⟩
    .nil)))
 k!"readARPackageElements_BswModuleEntry" ⟨k!"BswModuleEntry", R.readARPackageElements_BswModuleEntry⟩
 (.node (.node (.node (.node .nil
     k!"readARPackageElements_FlexrayCluster" ⟨k!"FlexrayCluster", R.readARPackageElements_FlexrayCluster⟩
     .nil)
    k!"readARPackageElements_SwRecordLayout" ⟨k!"SwRecordLayout", R.readARPackageElements_SwRecordLayout⟩
    .nil)
   k!"readARPackageElements_UserDefinedPdu" ⟨k!"UserDefinedPdu", R.readARPackageElements_UserDefinedPdu⟩
   (.node .nil
    k!"readLinTpConfigTpAddresses_TpAddress" ⟨k!"TpAddress", R.readLinTpConfigTpAddresses_TpAddress⟩
    .nil))
  k!"readPortPrototype_ModePortAnnotation" ⟨k!"ModePortAnnotation", R.readPortPrototype_ModePortAnnotation⟩
  (.node (.node (.node .nil
     k!"readRptComponent_RptExecutableEntity" ⟨k!"RptExecutableEntity", R.readRptComponent_RptExecutableEntity⟩
     .nil)
    k!"readSwRefTiming_MultidimensionalTime" ⟨k!"MultidimensionalTime", R.readSwRefTiming_MultidimensionalTime⟩
    .nil)
   k!"readARPackageElements_EthernetCluster" ⟨k!"EthernetCluster", R.readARPackageElements_EthernetCluster⟩
   (.node .nil
    k!"readARPackageElements_MultiplexedIPdu" ⟨k!"MultiplexedIPdu", R.readARPackageElements_MultiplexedIPdu⟩
    .nil))))

def readTable16 : Bst (RBody) :=
 (.node (.node (.node (.node (.node .nil
     k!"readARPackageElements_UserDefinedIPdu" ⟨k!"UserDefinedIPdu", R.readARPackageElements_UserDefinedIPdu⟩
     .nil)
    k!"readAdminDataDocRevisions_DocRevision" ⟨k!"DocRevision", R.readAdminDataDocRevisions_DocRevision⟩
    .nil)
   k!"readEcucValidationCondition_EcucQuery" ⟨k!"EcucQuery", R.readEcucValidationCondition_EcucQuery⟩
   (.node .nil
    k!"readErrorTracerNeeds_DevelopmentError" ⟨k!"DevelopmentError", R.readErrorTracerNeeds_RuntimeError⟩
    .nil))
  k!"readHeapUsages_RoughEstimateHeapUsage" ⟨k!"RoughEstimateHeapUsage", R.readHeapUsages_WorstCaseHeapUsage⟩
  (.node (.node (.node .nil
     k!"readSwCalprmRefProxy_SwCalprmRefProxy" ⟨k!"SwCalprmRefProxy", R.readSwCalprmRefProxy_SwCalprmRefProxy⟩
     .nil)
    k!"readSwDataDependency_CompuGenericMath" ⟨k!"CompuGenericMath", R.readSwDataDependency_CompuGenericMath⟩
    .nil)
   k!"readSwDataDependency_SwDataDependency" ⟨k!"SwDataDependency", R.readSwDataDependency_SwDataDependency⟩
   (.node .nil
    k!"readVariationPoint_BlueprintGenerator" ⟨k!"BlueprintGenerator", R.readVariationPoint_BlueprintGenerator⟩
    .nil)))
 k!"readVariationPoint_ConditionByFormula" ⟨k!"ConditionByFormula", R.readVariationPoint_ConditionByFormula⟩
 (.node (.node (.node (.node .nil
     k!"getConstantReference_ConstantReference" ⟨k!"ConstantReference", R.getConstantReference_ConstantReference⟩
     .nil)
    k!"getIpv6Configuration_Ipv6Configuration" ⟨k!"Ipv6Configuration", R.getIpv6Configuration_Ipv6Configuration⟩
    .nil)
   k!"getRuleBasedAxisCont_RuleBasedAxisCont" ⟨k!"RuleBasedAxisCont", R.getRuleBasedAxisCont_RuleBasedAxisCont⟩
   (.node .nil
    k!"getSubElementMapping_SubElementMapping" ⟨k!"SubElementMapping", R.getSubElementMapping_SubElementMapping⟩
    .nil))
  k!"readARPackageElements_ConsistencyNeeds" ⟨k!"ConsistencyNeeds", R.readARPackageElements_ConsistencyNeeds⟩
  (.node (.node (.node .nil
     k!"readARPackageElements_ISignalIPduGroup" ⟨k!"ISignalIPduGroup", R.readARPackageElements_ISignalIPduGroup⟩
     .nil)
    k!"readARPackageElements_LifeCycleInfoSet" ⟨k!"LifeCycleInfoSet", R.readARPackageElements_LifeCycleInfoSet⟩
    .nil)
   k!"readARPackageElements_SoAdRoutingGroup" ⟨k!"SoAdRoutingGroup", R.readARPackageElements_SoAdRoutingGroup⟩
   (.node .nil
    k!"readARPackageElements_TriggerInterface" ⟨k!"TriggerInterface", R.readARPackageElements_TriggerInterface⟩
    .nil))))

def readTable17 : Bst (RBody) :=
 .node readTable15 k!"readARPackageElements_NvDataInterface" ⟨k!"NvDataInterface", R.readARPackageElements_NvDataInterface⟩ readTable16

def readTable18 : Bst (RBody) :=
 (.node (.node (.node (.node (.node .nil
     k!"readMcDataInstance_McDataAccessDetails" ⟨k!"McDataAccessDetails", R.readMcDataInstance_McDataAccessDetails⟩
     .nil)
    k!"readPortPrototype_NvDataPortAnnotation" ⟨k!"NvDataPortAnnotation", R.readPortPrototype_NvDataPortAnnotation⟩
    .nil)
   k!"readRptSupportData_RptExecutionContext" ⟨k!"RptExecutionContext", R.readSdgCaption_SdgCaption⟩
   (.node .nil
    k!"readRunnableEntityWaitPoints_WaitPoint" ⟨k!"WaitPoint", R.readRunnableEntityWaitPoints_WaitPoint⟩
    .nil))
  k!"getTransportProtocolConfiguration_TcpTp" ⟨k!"TcpTp", R.getTransportProtocolConfiguration_TcpTp⟩
  (.node (.node (.node .nil
     k!"getTransportProtocolConfiguration_UdpTp" ⟨k!"UdpTp", R.getTransportProtocolConfiguration_UdpTp⟩
     .nil)
    k!"readARPackageElements_BswImplementation" ⟨k!"BswImplementation", R.readARPackageElements_BswImplementation⟩
    .nil)
   k!"readARPackageElements_GeneralPurposePdu" ⟨k!"GeneralPurposePdu", R.readARPackageElements_GeneralPurposePdu⟩
   (.node .nil
    k!"readARPackageElements_PhysicalDimension" ⟨k!"PhysicalDimension", R.readARPackageElements_PhysicalDimension⟩
    .nil)))
 k!"readARPackageElements_PredefinedVariant" ⟨k!"PredefinedVariant", R.readARPackageElements_PredefinedVariant⟩
 (.node (.node (.node (.node .nil
     k!"readARPackageElements_SwcImplementation" ⟨k!"SwcImplementation", R.readARPackageElements_SwcImplementation⟩
     .nil)
    k!"readARPackageElements_SystemSignalGroup" ⟨k!"SystemSignalGroup", R.readARPackageElements_SystemSignalGroup⟩
    .nil)
   k!"readCanTpConfigTpAddresses_CanTpAddress" ⟨k!"CanTpAddress", R.readCanTpConfigTpAddresses_CanTpAddress⟩
   (.node .nil
    k!"readExecutionTime_MemorySectionLocation" ⟨k!"MemorySectionLocation", R.readExecutionTime_MemorySectionLocation⟩
    .nil))
  k!"readModeErrorBehavior_ModeErrorBehavior" ⟨k!"ModeErrorBehavior", R.readModeErrorBehavior_ModeErrorBehavior⟩
  (.node (.node (.node .nil
     k!"readPortPrototype_TriggerPortAnnotation" ⟨k!"TriggerPortAnnotation", R.readPortPrototype_TriggerPortAnnotation⟩
     .nil)
    k!"readPredefinedChapter_PredefinedChapter" ⟨k!"PredefinedChapter", R.readPredefinedChapter_PredefinedChapter⟩
    .nil)
   k!"readStackUsages_RoughEstimateStackUsage" ⟨k!"RoughEstimateStackUsage", R.readStackUsages_WorstCaseStackUsage⟩
   (.node .nil
    k!"readSwComponentTypePorts_PPortPrototype" ⟨k!"PPortPrototype", R.readSwComponentTypePorts_PPortPrototype⟩
    .nil))))

def readTable19 : Bst (RBody) :=
 (.node (.node (.node (.node (.node .nil
     k!"readSwcInternalBehaviorEvents_InitEvent" ⟨k!"InitEvent", R.readSwcInternalBehaviorEvents_InitEvent⟩
     .nil)
    k!"readSymbolicNameProps_SymbolicNameProps" ⟨k!"SymbolicNameProps", R.readSymbolicNameProps_SymbolicNameProps⟩
    .nil)
   k!"getAutosarVariableRef_AutosarVariableRef" ⟨k!"AutosarVariableRef", R.getAutosarVariableRef_AutosarVariableRef⟩
   (.node .nil
    k!"getDocumentationBlock_DocumentationBlock" ⟨k!"DocumentationBlock", R.getDocumentationBlock_DocumentationBlock⟩
    .nil))
  k!"getEcucReferenceValue_EcucReferenceValue" ⟨k!"EcucReferenceValue", R.getEcucReferenceValue_EcucReferenceValue⟩
  (.node (.node (.node .nil
     k!"getRuleBasedValueCont_RuleBasedValueCont" ⟨k!"RuleBasedValueCont", R.getRuleBasedValueCont_RuleBasedValueCont⟩
     .nil)
    k!"getSwGenericAxisParam_SwGenericAxisParam" ⟨k!"SwGenericAxisParam", R.getSwGenericAxisParam_SwGenericAxisParam⟩
    .nil)
   k!"readARPackageElements_DataPrototypeGroup" ⟨k!"DataPrototypeGroup", R.readARPackageElements_DataPrototypeGroup⟩
   (.node .nil
    k!"readARPackageElements_DataTypeMappingSet" ⟨k!"DataTypeMappingSet", R.readARPackageElements_DataTypeMappingSet⟩
    .nil)))
 k!"readARPackageElements_GeneralPurposeIPdu" ⟨k!"GeneralPurposeIPdu", R.readARPackageElements_NPdu⟩
 (.node (.node (.node (.node .nil
     k!"readARPackageElements_ParameterInterface" ⟨k!"ParameterInterface", R.readARPackageElements_ParameterInterface⟩
     .nil)
    k!"readBswModuleEntryArguments_SwServiceArg" ⟨k!"SwServiceArg", R.readBswModuleEntryArguments_SwServiceArg⟩
    .nil)
   k!"readEcuInstanceCommControllers_LinMaster" ⟨k!"LinMaster", R.readEcuInstanceCommControllers_LinMaster⟩
   (.node .nil
    k!"readExecutionTimes_AnalyzedExecutionTime" ⟨k!"AnalyzedExecutionTime", R.readExecutionTimes_AnalyzedExecutionTime⟩
    .nil))
  k!"readExecutionTimes_MeasuredExecutionTime" ⟨k!"MeasuredExecutionTime", R.readExecutionTimes_MeasuredExecutionTime⟩
  (.node (.node (.node .nil
     k!"readHwAttributeDef_HwAttributeLiteralDef" ⟨k!"HwAttributeLiteralDef", R.readHwAttributeDef_HwAttributeLiteralDef⟩
     .nil)
    k!"readNvBlockDescriptor_NvBlockDataMapping" ⟨k!"NvBlockDataMapping", R.readNvBlockDescriptor_NvBlockDataMapping⟩
    .nil)
   k!"readPduToFrameMappings_PduToFrameMapping" ⟨k!"PduToFrameMapping", R.readPduToFrameMappings_PduToFrameMapping⟩
   (.node .nil
    k!"readPortPrototype_ClientServerAnnotation" ⟨k!"ClientServerAnnotation", R.readPortPrototype_ClientServerAnnotation⟩
    .nil))))

def readTable20 : Bst (RBody) :=
 .node readTable18 k!"readSwComponentTypePorts_RPortPrototype" ⟨k!"RPortPrototype", R.readSwComponentTypePorts_RPortPrototype⟩ readTable19

def readTable21 : Bst (RBody) :=
 .node readTable17 k!"readCanTpConfigTpChannels_CanTpChannel" ⟨k!"CanTpChannel", R.readCanTpConfigTpChannels_CanTpChannel⟩ readTable20

def readTable22 : Bst (RBody) :=
 (.node (.node (.node (.node (.node .nil
     k!"readTransientFault_PossibleErrorReaction" ⟨k!"PossibleErrorReaction", R.readTransientFault_PossibleErrorReaction⟩
     .nil)
    k!"getLOverviewParagraphs_LOverviewParagraph" ⟨k!"LOverviewParagraph", R.getLParagraphs_LParagraph⟩
    .nil)
   k!"getNvRequireComSpec_NvRequireComSpec_port" ⟨k!"NvRequireComSpec", R.getNvRequireComSpec_NvRequireComSpec_port⟩
   (.node .nil
    k!"readARPackageElements_EcucValueCollection" ⟨k!"EcucValueCollection", R.readARPackageElements_EcucValueCollection⟩
    .nil))
  k!"readARPackageElements_ModeSwitchInterface" ⟨k!"ModeSwitchInterface", R.readARPackageElements_ModeSwitchInterface⟩
  (.node (.node (.node .nil
     k!"readARPackageElements_RunnableEntityGroup" ⟨k!"RunnableEntityGroup", R.readARPackageElements_RunnableEntityGroup⟩
     .nil)
    k!"readCompuRationCoeffs_CompuRationalCoeffs" ⟨k!"CompuRationalCoeffs", R.readCompuRationCoeffs_CompuRationalCoeffs⟩
    .nil)
   k!"readContainedIPduProps_ContainedIPduProps" ⟨k!"ContainedIPduProps", R.readContainedIPduProps_ContainedIPduProps⟩
   (.node .nil
    k!"readDocRevisionModifications_Modification" ⟨k!"Modification", R.readDocRevisionModifications_Modification⟩
    .nil)))
 k!"readEndToEndProtection_EndToEndProtection" ⟨k!"EndToEndProtection", R.readEndToEndProtection_EndToEndProtection⟩
 (.node (.node (.node (.node .nil
     k!"readExecutionTimes_SimulatedExecutionTime" ⟨k!"SimulatedExecutionTime", R.readExecutionTimes_MeasuredExecutionTime⟩
     .nil)
    k!"readLOverviewParagraph_LOverviewParagraph" ⟨k!"LOverviewParagraph", R.readLanguageSpecific⟩
    .nil)
   k!"readMcDataInstance_RptSwPrototypingAccess" ⟨k!"RptSwPrototypingAccess", R.readMcDataInstance_RptSwPrototypingAccess⟩
   (.node .nil
    k!"readMultiplexedIPduStaticParts_StaticPart" ⟨k!"StaticPart", R.readMultiplexedIPduStaticParts_StaticPart⟩
    .nil))
  k!"readPortPrototype_DelegatedPortAnnotation" ⟨k!"DelegatedPortAnnotation", R.readPortPrototype_DelegatedPortAnnotation⟩
  (.node (.node (.node .nil
     k!"readPortPrototype_ParameterPortAnnotation" ⟨k!"ParameterPortAnnotation", R.readPortPrototype_ParameterPortAnnotation⟩
     .nil)
    k!"readSectionNamePrefixes_SectionNamePrefix" ⟨k!"SectionNamePrefix", R.readSectionNamePrefixes_SectionNamePrefix⟩
    .nil)
   k!"readSwDataDependency_SwDataDependencyArgs" ⟨k!"SwDataDependencyArgs", R.readSwDataDependency_SwDataDependencyArgs⟩
   (.node .nil
    k!"readSwVariableRefProxy_SwVariableRefProxy" ⟨k!"SwVariableRefProxy", R.readSwVariableRefProxy_SwVariableRefProxy⟩
    .nil))))

def readTable23 : Bst (RBody) :=
 (.node (.node (.node (.node (.node .nil
     k!"getAutosarParameterRef_AutosarParameterRef" ⟨k!"AutosarParameterRef", R.getAutosarParameterRef_AutosarParameterRef⟩
     .nil)
    k!"getBswModeSenderPolicy_BswModeSenderPolicy" ⟨k!"BswModeSenderPolicy", R.getBswModeSenderPolicy_BswModeSenderPolicy⟩
    .nil)
   k!"getChildElementJ1939NodeName_J1939NodeName" ⟨k!"J1939NodeName", R.getChildElementJ1939NodeName_J1939NodeName⟩
   (.node .nil
    k!"getCompuConstContent_CompuConstTextContent" ⟨k!"CompuConstTextContent", R.getCompuConstContent_CompuConstTextContent⟩
    .nil))
  k!"getCouplingPortDetails_CouplingPortDetails" ⟨k!"CouplingPortDetails", R.getCouplingPortDetails_CouplingPortDetails⟩
  (.node (.node (.node .nil
     k!"getEndToEndDescription_EndToEndDescription" ⟨k!"EndToEndDescription", R.getEndToEndDescription_EndToEndDescription⟩
     .nil)
    k!"getQueuedSenderComSpec_QueuedSenderComSpec" ⟨k!"QueuedSenderComSpec", R.getQueuedSenderComSpec_QueuedSenderComSpec⟩
    .nil)
   k!"getSwRecordLayoutGroup_SwRecordLayoutGroup" ⟨k!"SwRecordLayoutGroup", R.getSwRecordLayoutGroup_SwRecordLayoutGroup⟩
   (.node .nil
    k!"readARPackageElements_BswModuleDescription" ⟨k!"BswModuleDescription", R.readARPackageElements_BswModuleDescription⟩
    .nil)))
 k!"readARPackageElements_DiagnosticConnection" ⟨k!"DiagnosticConnection", R.readARPackageElements_DiagnosticConnection⟩
 (.node (.node (.node (.node .nil
     k!"readARPackageElements_GenericEthernetFrame" ⟨k!"GenericEthernetFrame", R.readARPackageElements_CanFrame⟩
     .nil)
    k!"readARPackageElements_ModeDeclarationGroup" ⟨k!"ModeDeclarationGroup", R.readARPackageElements_ModeDeclarationGroup⟩
    .nil)
   k!"readEthernetPhysicalChannelVlan_VlanConfig" ⟨k!"VlanConfig", R.readEthernetPhysicalChannelVlan_VlanConfig⟩
   (.node .nil
    k!"readModeRequestTypeMaps_ModeRequestTypeMap" ⟨k!"ModeRequestTypeMap", R.readModeRequestTypeMaps_ModeRequestTypeMap⟩
    .nil))
  k!"readPortPrototype_SenderReceiverAnnotation" ⟨k!"SenderReceiverAnnotation", R.readPortPrototype_SenderReceiverAnnotation⟩
  (.node (.node (.node .nil
     k!"readRptComponent_RoleBasedMcDataAssignment" ⟨k!"RoleBasedMcDataAssignment", R.readRptComponent_RoleBasedMcDataAssignment⟩
     .nil)
    k!"readSwDataDefPropsBits_SwBitRepresentation" ⟨k!"SwBitRepresentation", R.readSwDataDefPropsBits_SwBitRepresentation⟩
    .nil)
   k!"getTransportProtocolConfiguration_GenericTp" ⟨k!"GenericTp", R.getTransportProtocolConfiguration_GenericTp⟩
   (.node .nil
    k!"readARPackageElements_ClientServerInterface" ⟨k!"ClientServerInterface", R.readARPackageElements_ClientServerInterface⟩
    .nil))))

def readTable24 : Bst (RBody) :=
 .node readTable22 k!"readSwcInternalBehaviorEvents_TimingEvent" ⟨k!"TimingEvent", R.readSwcInternalBehaviorEvents_TimingEvent⟩ readTable23

def readTable25 : Bst (RBody) :=
 (.node (.node (.node (.node (.node .nil
     k!"readARPackageElements_DataTransformationSet" ⟨k!"DataTransformationSet", R.readARPackageElements_DataTransformationSet⟩
     .nil)
    k!"readARPackageElements_EndToEndProtectionSet" ⟨k!"EndToEndProtectionSet", R.readARPackageElements_EndToEndProtectionSet⟩
    .nil)
   k!"readARPackageElements_LinUnconditionalFrame" ⟨k!"LinUnconditionalFrame", R.readARPackageElements_CanFrame⟩
   (.node .nil
    k!"readFlatMapInstances_FlatInstanceDescriptor" ⟨k!"FlatInstanceDescriptor", R.readFlatMapInstances_FlatInstanceDescriptor⟩
    .nil))
  k!"readHwCategoryHwAttributeDef_HwAttributeDef" ⟨k!"HwAttributeDef", R.readHwCategoryHwAttributeDef_HwAttributeDef⟩
  (.node (.node (.node .nil
     k!"readHwPinGroupConnector_HwPinGroupConnector" ⟨k!"HwPinGroupConnector", R.readHwPinGroupConnector_HwPinGroupConnector⟩
     .nil)
    k!"readMultiplexedIPduDynamicParts_DynamicPart" ⟨k!"DynamicPart", R.readMultiplexedIPduDynamicParts_DynamicPart⟩
    .nil)
   k!"readNvBlockDescriptor_VariableDataPrototype" ⟨k!"VariableDataPrototype", R.readNvBlockDescriptor_VariableDataPrototype⟩
   (.node .nil
    k!"readResourceConsumption_ResourceConsumption" ⟨k!"ResourceConsumption", R.readResourceConsumption_ResourceConsumption⟩
    .nil)))
 k!"readSoAdConfigSocketAddresses_SocketAddress" ⟨k!"SocketAddress", R.readSoAdConfigSocketAddresses_SocketAddress⟩
 (.node (.node (.node (.node .nil
     k!"readSystemMappingSwMappings_SwcToEcuMapping" ⟨k!"SwcToEcuMapping", R.readSystemMappingSwMappings_SwcToEcuMapping⟩
     .nil)
    k!"getCanNmClusterCoupling_CanNmClusterCoupling" ⟨k!"CanNmClusterCoupling", R.getCanNmClusterCoupling_CanNmClusterCoupling⟩
    .nil)
   k!"getInitialSdDelayConfig_InitialSdDelayConfig" ⟨k!"InitialSdDelayConfig", R.getInitialSdDelayConfig_InitialSdDelayConfig⟩
   (.node .nil
    k!"getRequestResponseDelay_RequestResponseDelay" ⟨k!"RequestResponseDelay", R.getRequestResponseDelay_RequestResponseDelay⟩
    .nil))
  k!"getSwPointerTargetProps_SwPointerTargetProps" ⟨k!"SwPointerTargetProps", R.getSwPointerTargetProps_SwPointerTargetProps⟩
  (.node (.node (.node .nil
     k!"getUdpNmClusterCoupling_UdpNmClusterCoupling" ⟨k!"UdpNmClusterCoupling", R.getUdpNmClusterCoupling_UdpNmClusterCoupling⟩
     .nil)
    k!"readARPackageElements_DiagnosticServiceTable" ⟨k!"DiagnosticServiceTable", R.readARPackageElements_DiagnosticServiceTable⟩
    .nil)
   k!"readARPackageElements_ImplementationDataType" ⟨k!"ImplementationDataType", R.readARPackageElements_ImplementationDataType⟩
   (.node .nil
    k!"readARPackageElements_NvBlockSwComponentType" ⟨k!"NvBlockSwComponentType", R.readARPackageElements_NvBlockSwComponentType⟩
    .nil))))

def readTable26 : Bst (RBody) :=
 (.node (.node (.node (.node (.node .nil
     k!"readARPackageElements_ServiceSwComponentType" ⟨k!"ServiceSwComponentType", R.readARPackageElements_ServiceSwComponentType⟩
     .nil)
    k!"readBswInternalBehaviorEvents_BswTimingEvent" ⟨k!"BswTimingEvent", R.readBswInternalBehaviorEvents_BswTimingEvent⟩
    .nil)
   k!"readCanTpConfigTpConnections_CanTpConnection" ⟨k!"CanTpConnection", R.readCanTpConfigTpConnections_CanTpConnection⟩
   (.node .nil
    k!"readLinTpConfigTpConnections_LinTpConnection" ⟨k!"LinTpConnection", R.readLinTpConfigTpConnections_LinTpConnection⟩
    .nil))
  k!"readMcSupportData_McSwEmulationMethodSupport" ⟨k!"McSwEmulationMethodSupport", R.readMcSupportData_McSwEmulationMethodSupport⟩
  (.node (.node (.node .nil
     k!"readNvBlockDescriptor_ParameterDataPrototype" ⟨k!"ParameterDataPrototype", R.readNvBlockDescriptor_ParameterDataPrototype⟩
     .nil)
    k!"readNvBlockSwComponentType_NvBlockDescriptor" ⟨k!"NvBlockDescriptor", R.readNvBlockSwComponentType_NvBlockDescriptor⟩
    .nil)
   k!"readVariationPoint_PostBuildVariantCondition" ⟨k!"PostBuildVariantCondition", R.readVariationPoint_PostBuildVariantCondition⟩
   (.node .nil
    k!"getCompuConstContent_CompuConstFormulaContent" ⟨k!"CompuConstFormulaContent", R.getCompuConstContent_CompuConstFormulaContent⟩
    .nil)))
 k!"getCompuConstContent_CompuConstNumericContent" ⟨k!"CompuConstNumericContent", R.getCompuConstContent_CompuConstNumericContent⟩
 (.node (.node (.node (.node .nil
     k!"getDataPrototypeMappings_DataPrototypeMapping" ⟨k!"DataPrototypeMapping", R.getDataPrototypeMappings_DataPrototypeMapping⟩
     .nil)
    k!"readARPackageElements_PortInterfaceMappingSet" ⟨k!"PortInterfaceMappingSet", R.readARPackageElements_PortInterfaceMappingSet⟩
    .nil)
   k!"readARPackageElements_SenderReceiverInterface" ⟨k!"SenderReceiverInterface", R.readARPackageElements_SenderReceiverInterface⟩
   (.node .nil
    k!"readDependencyOnArtifact_DependencyOnArtifact" ⟨k!"DependencyOnArtifact", R.readDependencyOnArtifact_DependencyOnArtifact⟩
    .nil))
  k!"readDocumentationContext_DocumentationContext" ⟨k!"DocumentationContext", R.readDocumentationContext_DocumentationContext⟩
  (.node (.node .nil
    k!"readEcucConditionFormula_EcucConditionFormula" ⟨k!"EcucConditionFormula", R.readEcucConditionFormula_EcucConditionFormula⟩
    .nil)
   k!"readISignalToPduMappings_ISignalToIPduMapping" ⟨k!"ISignalToIPduMapping", R.readISignalToPduMappings_ISignalToIPduMapping⟩
   (.node .nil
    k!"readSwcInternalBehaviorEvents_BackgroundEvent" ⟨k!"BackgroundEvent", R.readSwcInternalBehaviorEvents_InitEvent⟩
    .nil))))

def readTable27 : Bst (RBody) :=
 .node readTable25 k!"readARPackageElements_PortPrototypeBlueprint" ⟨k!"PortPrototypeBlueprint", R.readARPackageElements_PortPrototypeBlueprint⟩ readTable26

def readTable28 : Bst (RBody) :=
 .node readTable24 k!"readARPackageElements_ConstantSpecification" ⟨k!"ConstantSpecification", R.readARPackageElements_ConstantSpecification⟩ readTable27

def readTable29 : Bst (RBody) :=
 .node readTable21 k!"readSwComponentTypePorts_PRPortPrototype" ⟨k!"PRPortPrototype", R.readSwComponentTypePorts_PRPortPrototype⟩ readTable28

def readTable30 : Bst (RBody) :=
 .node readTable14 k!"readPossibleErrors_ApplicationError" ⟨k!"ApplicationError", R.readPossibleErrors_ApplicationError⟩ readTable29

def readTable31 : Bst (RBody) :=
 (.node (.node (.node (.node (.node .nil
     k!"getEcucTextualParamValue_EcucTextualParamValue" ⟨k!"EcucTextualParamValue", R.getEcucTextualParamValue_EcucTextualParamValue⟩
     .nil)
    k!"getEventControlledTiming_EventControlledTiming" ⟨k!"EventControlledTiming", R.getEventControlledTiming_EventControlledTiming⟩
    .nil)
   k!"getMultiLanguageVerbatim_MultiLanguageVerbatim" ⟨k!"MultiLanguageVerbatim", R.getMultiLanguageVerbatim_MultiLanguageVerbatim⟩
   (.node .nil
    k!"getMultilanguageLongName_MultilanguageLongName" ⟨k!"MultilanguageLongName", R.getMultilanguageLongName_MultilanguageLongName⟩
    .nil))
  k!"getQueuedReceiverComSpec_QueuedReceiverComSpec" ⟨k!"QueuedReceiverComSpec", dropDup R.getQueuedReceiverComSpec_QueuedReceiverComSpec⟩
  (.node (.node (.node .nil
     k!"getReceptionComSpecProps_ReceptionComSpecProps" ⟨k!"ReceptionComSpecProps", R.getReceptionComSpecProps_ReceptionComSpecProps⟩
     .nil)
    k!"readARPackageElements_ApplicationArrayDataType" ⟨k!"ApplicationArrayDataType", R.readARPackageElements_ApplicationArrayDataType⟩
    .nil)
   k!"readARPackageElements_EcucDefinitionCollection" ⟨k!"EcucDefinitionCollection", R.readARPackageElements_EcucDefinitionCollection⟩
   (.node .nil
    k!"readARPackageElements_EcucDestinationUriDefSet" ⟨k!"EcucDestinationUriDefSet", R.readARPackageElements_EcucDestinationUriDefSet⟩
    .nil)))
 k!"readARPackageElements_SwSystemconstantValueSet" ⟨k!"SwSystemconstantValueSet", R.readARPackageElements_SwSystemconstantValueSet⟩
 (.node (.node (.node (.node .nil
     k!"readCouplingPortVlanMemberships_VlanMembership" ⟨k!"VlanMembership", R.readCouplingPortVlanMemberships_VlanMembership⟩
     .nil)
    k!"readDoIpTpConfigTpConnections_DoIpTpConnection" ⟨k!"DoIpTpConnection", R.readDoIpTpConfigTpConnections_DoIpTpConnection⟩
    .nil)
   k!"readPortInterfaceMappings_ModeInterfaceMapping" ⟨k!"ModeInterfaceMapping", R.readPortInterfaceMappings_ModeInterfaceMapping⟩
   (.node .nil
    k!"readARPackageElements_ApplicationRecordDataType" ⟨k!"ApplicationRecordDataType", R.readARPackageElements_ApplicationRecordDataType⟩
    .nil))
  k!"readARPackageElements_ModeDeclarationMappingSet" ⟨k!"ModeDeclarationMappingSet", R.readARPackageElements_ModeDeclarationMappingSet⟩
  (.node (.node (.node .nil
     k!"readARPackageElements_PostBuildVariantCriterion" ⟨k!"PostBuildVariantCriterion", R.readARPackageElements_PostBuildVariantCriterion⟩
     .nil)
    k!"readBswInternalBehaviorEntities_BswCalledEntity" ⟨k!"BswCalledEntity", R.readBswInternalBehaviorEntities_BswCalledEntity⟩
    .nil)
   k!"readEcucContainerDefReferences_EcucReferenceDef" ⟨k!"EcucReferenceDef", R.readEcucContainerDefReferences_EcucReferenceDef⟩
   (.node .nil
    k!"readExecutionTimes_RoughEstimateOfExecutionTime" ⟨k!"RoughEstimateOfExecutionTime", R.readExecutionTimes_RoughEstimateOfExecutionTime⟩
    .nil))))

def readTable32 : Bst (RBody) :=
 (.node (.node (.node (.node (.node .nil
     k!"readNvBlockSwComponentType_BulkNvDataDescriptor" ⟨k!"BulkNvDataDescriptor", R.readNvBlockSwComponentType_BulkNvDataDescriptor⟩
     .nil)
    k!"readPhysicalChannelPduTriggerings_PduTriggering" ⟨k!"PduTriggering", R.readPhysicalChannelPduTriggerings_PduTriggering⟩
    .nil)
   k!"readSwcInternalBehaviorEvents_DataReceivedEvent" ⟨k!"DataReceivedEvent", R.readSwcInternalBehaviorEvents_DataReceivedEvent⟩
   (.node .nil
    k!"readSwcInternalBehaviorRunnables_RunnableEntity" ⟨k!"RunnableEntity", R.readSwcInternalBehaviorRunnables_RunnableEntity⟩
    .nil))
  k!"readSystemMappingEcuResourceMappings_ECUMapping" ⟨k!"ECUMapping", R.readSystemMappingEcuResourceMappings_ECUMapping⟩
  (.node (.node (.node .nil
     k!"getISignalIPduIPduTimingSpecification_IPduTiming" ⟨k!"IPduTiming", R.getISignalIPduIPduTimingSpecification_IPduTiming⟩
     .nil)
    k!"getInfrastructureServices_InfrastructureServices" ⟨k!"InfrastructureServices", R.getInfrastructureServices_InfrastructureServices⟩
    .nil)
   k!"getModeSwitchedAckRequest_ModeSwitchedAckRequest" ⟨k!"ModeSwitchedAckRequest", R.getModeSwitchedAckRequest_ModeSwitchedAckRequest⟩
   (.node .nil
    k!"getMultiLanguagePlainText_MultiLanguagePlainText" ⟨k!"MultiLanguagePlainText", R.getMultiLanguagePlainText_MultiLanguagePlainText⟩
    .nil)))
 k!"getNonqueuedSenderComSpec_NonqueuedSenderComSpec" ⟨k!"NonqueuedSenderComSpec", R.getNonqueuedSenderComSpec_NonqueuedSenderComSpec⟩
 (.node (.node (.node (.node .nil
     k!"getRunnableEntityArgument_RunnableEntityArgument" ⟨k!"RunnableEntityArgument", R.getRunnableEntityArgument_RunnableEntityArgument⟩
     .nil)
    k!"getTextValueSpecification_TextValueSpecification" ⟨k!"TextValueSpecification", dropDup R.getTextValueSpecification_TextValueSpecification⟩
    .nil)
   k!"getTransmissionModeTiming_TransmissionModeTiming" ⟨k!"TransmissionModeTiming", R.getTransmissionModeTiming_TransmissionModeTiming⟩
   (.node .nil
    k!"readARPackageElements_ApplicationSwComponentType" ⟨k!"ApplicationSwComponentType", R.readARPackageElements_ServiceSwComponentType⟩
    .nil))
  k!"readARPackageElements_CompositionSwComponentType" ⟨k!"CompositionSwComponentType", R.readARPackageElements_CompositionSwComponentType⟩
  (.node (.node (.node .nil
     k!"readAtomicSwComponentTypeSymbolProps_SymbolProps" ⟨k!"SymbolProps", R.readAtomicSwComponentTypeSymbolProps_SymbolProps⟩
     .nil)
    k!"readBswInternalBehaviorEvents_BswBackgroundEvent" ⟨k!"BswBackgroundEvent", R.readBswInternalBehaviorEvents_BswBackgroundEvent⟩
    .nil)
   k!"readBswInternalBehaviorEvents_BswModeSwitchEvent" ⟨k!"BswModeSwitchEvent", R.readBswInternalBehaviorEvents_BswModeSwitchEvent⟩
   (.node .nil
    k!"readBswModuleDescriptionRequiredTriggers_Trigger" ⟨k!"Trigger", R.readARPackageElements_TriggerInterface⟩
    .nil))))

def readTable33 : Bst (RBody) :=
 .node readTable31 k!"readNvBlockDescriptor_InstantiationDataDefProps" ⟨k!"InstantiationDataDefProps", R.readNvBlockDescriptor_InstantiationDataDefProps⟩ readTable32

def readTable34 : Bst (RBody) :=
 (.node (.node (.node (.node (.node .nil
     k!"readBswServiceDependencyServiceNeeds_IdsMgrNeeds" ⟨k!"IdsMgrNeeds", R.readBswServiceDependencyServiceNeeds_IdsMgrNeeds⟩
     .nil)
    k!"readEcucContainerDefParameters_EcucFloatParamDef" ⟨k!"EcucFloatParamDef", R.readEcucContainerDefParameters_EcucFloatParamDef⟩
    .nil)
   k!"readLifeCycleInfoSetLifeCycleInfos_LifeCycleInfo" ⟨k!"LifeCycleInfo", R.readLifeCycleInfoSetLifeCycleInfos_LifeCycleInfo⟩
   (.node .nil
    k!"readMcDataAccessDetails_RteEventInEcuInstanceRef" ⟨k!"RteEventInEcuInstanceRef", R.readMcDataAccessDetails_RteEventInEcuInstanceRef⟩
    .nil))
  k!"readRptExecutableEntity_RptExecutableEntityEvent" ⟨k!"RptExecutableEntityEvent", R.readRptExecutableEntity_RptExecutableEntityEvent⟩
  (.node (.node (.node .nil
     k!"readSwcInternalBehaviorEvents_SwcModeSwitchEvent" ⟨k!"SwcModeSwitchEvent", R.readSwcInternalBehaviorEvents_SwcModeSwitchEvent⟩
     .nil)
    k!"readSystemMappingSwImplMappings_SwcToImplMapping" ⟨k!"SwcToImplMapping", R.readSystemMappingSwImplMappings_SwcToImplMapping⟩
    .nil)
   k!"readVariationPointProxy_FloatValueVariationPoint" ⟨k!"FloatValueVariationPoint", R.readVariationPointProxy_FloatValueVariationPoint⟩
   (.node .nil
    k!"readVariationPointProxy_LimitValueVariationPoint" ⟨k!"LimitValueVariationPoint", R.readVariationPointProxy_LimitValueVariationPoint⟩
    .nil)))
 k!"getModeGroupIRef_PModeGroupInAtomicSwcInstanceRef" ⟨k!"PModeGroupInAtomicSwcInstanceRef", R.getModeGroupIRef_PModeGroupInAtomicSwcInstanceRef⟩
 (.node (.node (.node (.node .nil
     k!"getModeGroupIRef_RModeGroupInAtomicSWCInstanceRef" ⟨k!"RModeGroupInAtomicSWCInstanceRef", R.getModeGroupIRef_RModeGroupInAtomicSWCInstanceRef⟩
     .nil)
    k!"getMultiLanguageParagraphs_MultiLanguageParagraph" ⟨k!"MultiLanguageParagraph", R.getMultiLanguageParagraphs_MultiLanguageParagraph⟩
    .nil)
   k!"readARPackageElements_SecureCommunicationPropsSet" ⟨k!"SecureCommunicationPropsSet", R.readARPackageElements_SecureCommunicationPropsSet⟩
   (.node .nil
    k!"readARPackageElements_ServiceProxySwComponentType" ⟨k!"ServiceProxySwComponentType", R.readARPackageElements_ServiceSwComponentType⟩
    .nil))
  k!"readBswServiceDependencyServiceNeeds_DltUserNeeds" ⟨k!"DltUserNeeds", R.readBswServiceDependencyServiceNeeds_BswMgrNeeds⟩
  (.node (.node (.node .nil
     k!"readEOCExecutableEntityRef_EOCExecutableEntityRef" ⟨k!"EOCExecutableEntityRef", R.readEOCExecutableEntityRef_EOCExecutableEntityRef⟩
     .nil)
    k!"readEcucContainerDefParameters_EcucStringParamDef" ⟨k!"EcucStringParamDef", R.readEcucContainerDefParameters_EcucStringParamDef⟩
    .nil)
   k!"readPortPrototype_IoHwAbstractionServerAnnotation" ⟨k!"IoHwAbstractionServerAnnotation", R.readPortPrototype_IoHwAbstractionServerAnnotation⟩
   (.node .nil
    k!"getArrayValueSpecification_ArrayValueSpecification" ⟨k!"ArrayValueSpecification", R.getArrayValueSpecification_ArrayValueSpecification⟩
    .nil))))

def readTable35 : Bst (RBody) :=
 (.node (.node (.node (.node (.node .nil
     k!"getChildElementRxIdentifierRange_RxIdentifierRange" ⟨k!"RxIdentifierRange", R.getChildElementRxIdentifierRange_RxIdentifierRange⟩
     .nil)
    k!"getEcucNumericalParamValue_EcucNumericalParamValue" ⟨k!"EcucNumericalParamValue", R.getEcucNumericalParamValue_EcucNumericalParamValue⟩
    .nil)
   k!"getModeSwitchSenderComSpec_ModeSwitchSenderComSpec" ⟨k!"ModeSwitchSenderComSpec", R.getModeSwitchSenderComSpec_ModeSwitchSenderComSpec⟩
   (.node .nil
    k!"getParameterProvideComSpec_ParameterProvideComSpec" ⟨k!"ParameterProvideComSpec", R.getParameterProvideComSpec_ParameterProvideComSpec⟩
    .nil))
  k!"getParameterRequireComSpec_ParameterRequireComSpec" ⟨k!"ParameterRequireComSpec", R.getParameterRequireComSpec_ParameterRequireComSpec⟩
  (.node (.node (.node .nil
     k!"getRoleBasedDataAssignment_RoleBasedDataAssignment" ⟨k!"RoleBasedDataAssignment", R.getRoleBasedDataAssignment_RoleBasedDataAssignment⟩
     .nil)
    k!"getRoleBasedPortAssignment_RoleBasedPortAssignment" ⟨k!"RoleBasedPortAssignment", R.getRoleBasedPortAssignment_RoleBasedPortAssignment⟩
    .nil)
   k!"readARPackageElements_ApplicationPrimitiveDataType" ⟨k!"ApplicationPrimitiveDataType", R.readARPackageElements_ApplicationPrimitiveDataType⟩
   (.node .nil
    k!"readARPackageElements_E2EProfileCompatibilityProps" ⟨k!"E2EProfileCompatibilityProps", R.readARPackageElements_E2EProfileCompatibilityProps⟩
    .nil)))
 k!"readBswInternalBehaviorEntities_BswInterruptEntity" ⟨k!"BswInterruptEntity", R.readBswInternalBehaviorEntities_BswInterruptEntity⟩
 (.node (.node (.node (.node .nil
     k!"readBswInternalBehaviorEvents_BswDataReceivedEvent" ⟨k!"BswDataReceivedEvent", R.readBswInternalBehaviorEvents_BswDataReceivedEvent⟩
     .nil)
    k!"readEcucContainerDefParameters_EcucBooleanParamDef" ⟨k!"EcucBooleanParamDef", R.readEcucContainerDefParameters_EcucBooleanParamDef⟩
    .nil)
   k!"readEcucContainerDefParameters_EcucFunctionNameDef" ⟨k!"EcucFunctionNameDef", R.readEcucContainerDefParameters_EcucFunctionNameDef⟩
   (.node .nil
    k!"readEcucContainerDefParameters_EcucIntegerParamDef" ⟨k!"EcucIntegerParamDef", R.readEcucContainerDefParameters_EcucIntegerParamDef⟩
    .nil))
  k!"readEcucDestinationUriDefSet_EcucDestinationUriDef" ⟨k!"EcucDestinationUriDef", R.readEcucDestinationUriDefSet_EcucDestinationUriDef⟩
  (.node (.node (.node .nil
     k!"readEcucDestinationUriDef_EcucDestinationUriPolicy" ⟨k!"EcucDestinationUriPolicy", R.readEcucDestinationUriDef_EcucDestinationUriPolicy⟩
     .nil)
    k!"readEcucModuleDefContainers_EcucChoiceContainerDef" ⟨k!"EcucChoiceContainerDef", R.readEcucModuleDefContainers_EcucChoiceContainerDef⟩
    .nil)
   k!"readRunnableEntityModeAccessPoints_ModeAccessPoint" ⟨k!"ModeAccessPoint", R.readRunnableEntityModeAccessPoints_ModeAccessPoint⟩
   (.node .nil
    k!"readRunnableEntityModeSwitchPoints_ModeSwitchPoint" ⟨k!"ModeSwitchPoint", R.readRunnableEntityModeSwitchPoints_ModeSwitchPoint⟩
    .nil))))

def readTable36 : Bst (RBody) :=
 .node readTable34 k!"getBswModeSwitchAckRequest_BswModeSwitchAckRequest" ⟨k!"BswModeSwitchAckRequest", R.getModeSwitchedAckRequest_ModeSwitchedAckRequest⟩ readTable35

def readTable37 : Bst (RBody) :=
 .node readTable33 k!"readBswServiceDependencyServiceNeeds_BswMgrNeeds" ⟨k!"BswMgrNeeds", R.readBswServiceDependencyServiceNeeds_BswMgrNeeds⟩ readTable36

def readTable38 : Bst (RBody) :=
 (.node (.node (.node (.node (.node .nil
     k!"readVariationPointProxy_BooleanValueVariationPoint" ⟨k!"BooleanValueVariationPoint", R.readVariationPointProxy_FloatValueVariationPoint⟩
     .nil)
    k!"readVariationPointProxy_IntegerValueVariationPoint" ⟨k!"IntegerValueVariationPoint", R.readVariationPointProxy_FloatValueVariationPoint⟩
    .nil)
   k!"readARPackageElements_EcuAbstractionSwComponentType" ⟨k!"EcuAbstractionSwComponentType", R.readARPackageElements_EcuAbstractionSwComponentType⟩
   (.node .nil
    k!"readARPackageElements_EcucModuleConfigurationValues" ⟨k!"EcucModuleConfigurationValues", R.readARPackageElements_EcucModuleConfigurationValues⟩
    .nil))
  k!"readARPackageElements_SensorActuatorSwComponentType" ⟨k!"SensorActuatorSwComponentType", R.readARPackageElements_SensorActuatorSwComponentType⟩
  (.node (.node (.node .nil
     k!"readApplicationArrayElement_ApplicationArrayElement" ⟨k!"ApplicationArrayElement", R.readApplicationArrayElement_ApplicationArrayElement⟩
     .nil)
    k!"readBswModuleEntityDataSendPoints_BswVariableAccess" ⟨k!"BswVariableAccess", R.readBswModuleEntityDataSendPoints_BswVariableAccess⟩
    .nil)
   k!"readDoIpTpConfigDoIpLogicAddresses_DoIpLogicAddress" ⟨k!"DoIpLogicAddress", R.readDoIpTpConfigDoIpLogicAddresses_DoIpLogicAddress⟩
   (.node .nil
    k!"readEcuInstanceConnectors_CanCommunicationConnector" ⟨k!"CanCommunicationConnector", R.readEcuInstanceConnectors_CanCommunicationConnector⟩
    .nil)))
 k!"readEcuInstanceConnectors_LinCommunicationConnector" ⟨k!"LinCommunicationConnector", R.readEcuInstanceConnectors_CanCommunicationConnector⟩
 (.node (.node (.node (.node .nil
     k!"readEcucValidationCondition_EcucValidationCondition" ⟨k!"EcucValidationCondition", R.readEcucValidationCondition_EcucValidationCondition⟩
     .nil)
    k!"readFlexrayCommunicationController_FlexrayFifoRange" ⟨k!"FlexrayFifoRange", R.readFlexrayCommunicationController_FlexrayFifoRange⟩
    .nil)
   k!"readMultiplexedPartSegmentPositions_SegmentPosition" ⟨k!"SegmentPosition", R.readMultiplexedPartSegmentPositions_SegmentPosition⟩
   (.node .nil
    k!"readNmPduISignalToIPduMappings_ISignalToIPduMapping" ⟨k!"ISignalToIPduMapping", R.readNmPduISignalToIPduMappings_ISignalToIPduMapping⟩
    .nil))
  k!"readPOperationIRef_POperationInAtomicSwcInstanceRef" ⟨k!"POperationInAtomicSwcInstanceRef", R.readPOperationIRef_POperationInAtomicSwcInstanceRef⟩
  (.node (.node (.node .nil
     k!"readROperationIRef_ROperationInAtomicSwcInstanceRef" ⟨k!"ROperationInAtomicSwcInstanceRef", R.readROperationIRef_ROperationInAtomicSwcInstanceRef⟩
     .nil)
    k!"readRunnableEntityParameterAccesses_ParameterAccess" ⟨k!"ParameterAccess", R.readRunnableEntityParameterAccesses_ParameterAccess⟩
    .nil)
   k!"readSwcInternalBehaviorEvents_OperationInvokedEvent" ⟨k!"OperationInvokedEvent", R.readSwcInternalBehaviorEvents_OperationInvokedEvent⟩
   (.node .nil
    k!"readSwcInternalBehaviorPortAPIOptions_PortAPIOption" ⟨k!"PortAPIOption", R.readSwcInternalBehaviorPortAPIOptions_PortAPIOption⟩
    .nil))))

def readTable39 : Bst (RBody) :=
 (.node (.node (.node (.node (.node .nil
     k!"getCanClusterBusOffRecovery_CanClusterBusOffRecovery" ⟨k!"CanClusterBusOffRecovery", R.getCanClusterBusOffRecovery_CanClusterBusOffRecovery⟩
     .nil)
    k!"getNonqueuedReceiverComSpec_NonqueuedReceiverComSpec" ⟨k!"NonqueuedReceiverComSpec", dropDup R.getNonqueuedReceiverComSpec_NonqueuedReceiverComSpec⟩
    .nil)
   k!"getRecordValueSpecification_RecordValueSpecification" ⟨k!"RecordValueSpecification", R.getRecordValueSpecification_RecordValueSpecification⟩
   (.node .nil
    k!"getSecureCommunicationProps_SecureCommunicationProps" ⟨k!"SecureCommunicationProps", R.getSecureCommunicationProps_SecureCommunicationProps⟩
    .nil))
  k!"getTransmissionComSpecProps_TransmissionComSpecProps" ⟨k!"TransmissionComSpecProps", R.getTransmissionComSpecProps_TransmissionComSpecProps⟩
  (.node (.node (.node .nil
     k!"readBswInternalBehaviorEntities_BswSchedulableEntity" ⟨k!"BswSchedulableEntity", R.readBswInternalBehaviorEntities_BswCalledEntity⟩
     .nil)
    k!"readBswServiceDependencyServiceNeeds_ComMgrUserNeeds" ⟨k!"ComMgrUserNeeds", R.readBswServiceDependencyServiceNeeds_ComMgrUserNeeds⟩
    .nil)
   k!"readHwElementHwElementConnections_HwElementConnector" ⟨k!"HwElementConnector", R.readHwElementHwElementConnections_HwElementConnector⟩
   (.node .nil
    k!"readSwcInternalBehaviorEvents_DataSendCompletedEvent" ⟨k!"DataSendCompletedEvent", R.readSwcInternalBehaviorEvents_DataSendCompletedEvent⟩
    .nil)))
 k!"readVariationPointProxy_NumericalValueVariationPoint" ⟨k!"NumericalValueVariationPoint", R.readVariationPointProxy_FloatValueVariationPoint⟩
 (.node (.node (.node (.node .nil
     k!"readVariationPointProxy_TimeValueValueVariationPoint" ⟨k!"TimeValueValueVariationPoint", R.readVariationPointProxy_FloatValueVariationPoint⟩
     .nil)
    k!"getNonqueuedSenderComSpec_NonqueuedSenderComSpec_port" ⟨k!"NonqueuedSenderComSpec", R.getNonqueuedSenderComSpec_NonqueuedSenderComSpec_port⟩
    .nil)
   k!"readBswInternalBehaviorEvents_BswModeSwitchedAckEvent" ⟨k!"BswModeSwitchedAckEvent", R.readBswInternalBehaviorEvents_BswModeSwitchedAckEvent⟩
   (.node .nil
    k!"readBswServiceDependencyServiceNeeds_ErrorTracerNeeds" ⟨k!"ErrorTracerNeeds", R.readBswServiceDependencyServiceNeeds_ErrorTracerNeeds⟩
    .nil))
  k!"readEcucContainerDefReferences_EcucChoiceReferenceDef" ⟨k!"EcucChoiceReferenceDef", R.readEcucContainerDefReferences_EcucChoiceReferenceDef⟩
  (.node (.node (.node .nil
     k!"readEcucModuleDefContainers_EcucParamConfContainerDef" ⟨k!"EcucParamConfContainerDef", R.readEcucModuleDefContainers_EcucParamConfContainerDef⟩
     .nil)
    k!"readExecutionOrderConstraint_ExecutionOrderConstraint" ⟨k!"ExecutionOrderConstraint", R.readExecutionOrderConstraint_ExecutionOrderConstraint⟩
    .nil)
   k!"readLinPhysicalChannelScheduleTables_LinScheduleTable" ⟨k!"LinScheduleTable", R.readLinPhysicalChannelScheduleTables_LinScheduleTable⟩
   (.node .nil
    k!"readModeDeclarationGroupModeTransition_ModeTransition" ⟨k!"ModeTransition", R.readModeDeclarationGroupModeTransition_ModeTransition⟩
    .nil))))

def readTable40 : Bst (RBody) :=
 .node readTable38 k!"getAutosarEngineeringObject_AutosarEngineeringObject" ⟨k!"AutosarEngineeringObject", R.getAutosarEngineeringObject_AutosarEngineeringObject⟩ readTable39

def readTable41 : Bst (RBody) :=
 (.node (.node (.node (.node (.node .nil
     k!"readProvidedServiceInstanceEventHandlers_EventHandler" ⟨k!"EventHandler", R.readProvidedServiceInstanceEventHandlers_EventHandler⟩
     .nil)
    k!"getBswServiceDependencyIdent_BswServiceDependencyIdent" ⟨k!"BswServiceDependencyIdent", R.readSdgCaption_SdgCaption⟩
    .nil)
   k!"getEcucDestinationUriRefs_EcucDestinationUriDefRefType" ⟨k!"EcucDestinationUriDefRefType", R.getEcucDestinationUriRefs_EcucDestinationUriDefRefType⟩
   (.node .nil
    k!"getModeSwitchReceiverComSpec_ModeSwitchReceiverComSpec" ⟨k!"ModeSwitchReceiverComSpec", R.getModeSwitchReceiverComSpec_ModeSwitchReceiverComSpec⟩
    .nil))
  k!"readARPackageElements_SignalServiceTranslationPropsSet" ⟨k!"SignalServiceTranslationPropsSet", R.readARPackageElements_SignalServiceTranslationPropsSet⟩
  (.node (.node (.node .nil
     k!"readActivationReasons_ExecutableEntityActivationReason" ⟨k!"ExecutableEntityActivationReason", R.readActivationReasons_ExecutableEntityActivationReason⟩
     .nil)
    k!"readBswInternalBehaviorEvents_BswModeManagerErrorEvent" ⟨k!"BswModeManagerErrorEvent", R.readBswInternalBehaviorEvents_BswModeSwitchedAckEvent⟩
    .nil)
   k!"readBswInternalBehaviorEvents_BswOperationInvokedEvent" ⟨k!"BswOperationInvokedEvent", R.readBswInternalBehaviorEvents_BswOperationInvokedEvent⟩
   (.node .nil
    k!"readEcucContainerDefParameters_EcucEnumerationParamDef" ⟨k!"EcucEnumerationParamDef", R.readEcucContainerDefParameters_EcucEnumerationParamDef⟩
    .nil)))
 k!"readMcDataAccessDetails_VariableAccessInEcuInstanceRef" ⟨k!"VariableAccessInEcuInstanceRef", R.readMcDataAccessDetails_VariableAccessInEcuInstanceRef⟩
 (.node (.node (.node (.node .nil
     k!"readMcSwEmulationMethodSupport_McParameterElementGroup" ⟨k!"McParameterElementGroup", R.readMcSwEmulationMethodSupport_McParameterElementGroup⟩
     .nil)
    k!"readPhysicalChannelFrameTriggerings_CanFrameTriggering" ⟨k!"CanFrameTriggering", R.readPhysicalChannelFrameTriggerings_CanFrameTriggering⟩
    .nil)
   k!"readPhysicalChannelFrameTriggerings_LinFrameTriggering" ⟨k!"LinFrameTriggering", R.readPhysicalChannelFrameTriggerings_LinFrameTriggering⟩
   (.node .nil
    k!"readPortInterfaceMappings_ClientServerInterfaceMapping" ⟨k!"ClientServerInterfaceMapping", R.readPortInterfaceMappings_ClientServerInterfaceMapping⟩
    .nil))
  k!"readSoAdConfigConnectionBundles_SocketConnectionBundle" ⟨k!"SocketConnectionBundle", R.readSoAdConfigConnectionBundles_SocketConnectionBundle⟩
  (.node (.node (.node .nil
     k!"getParameterRequireComSpec_ParameterRequireComSpec_port" ⟨k!"ParameterRequireComSpec", R.getParameterRequireComSpec_ParameterRequireComSpec_port⟩
     .nil)
    k!"getTransmissionModeConditions_TransmissionModeCondition" ⟨k!"TransmissionModeCondition", R.getTransmissionModeConditions_TransmissionModeCondition⟩
    .nil)
   k!"readBswServiceDependencyServiceNeeds_CryptoServiceNeeds" ⟨k!"CryptoServiceNeeds", R.readBswServiceDependencyServiceNeeds_CryptoServiceNeeds⟩
   (.node .nil
    k!"readBswServiceDependencyServiceNeeds_ObdPidServiceNeeds" ⟨k!"ObdPidServiceNeeds", R.readBswServiceDependencyServiceNeeds_ObdPidServiceNeeds⟩
    .nil))))

def readTable42 : Bst (RBody) :=
 (.node (.node (.node (.node (.node .nil
     k!"readEcuInstanceConnectors_FlexrayCommunicationConnector" ⟨k!"FlexrayCommunicationConnector", R.readEcuInstanceConnectors_CanCommunicationConnector⟩
     .nil)
    k!"readEcucContainerDefReferences_EcucInstanceReferenceDef" ⟨k!"EcucInstanceReferenceDef", R.readEcucContainerDefReferences_EcucInstanceReferenceDef⟩
    .nil)
   k!"readEthernetClusterMacMulticastGroups_MacMulticastGroup" ⟨k!"MacMulticastGroup", R.readEthernetClusterMacMulticastGroups_MacMulticastGroup⟩
   (.node .nil
    k!"readModeDeclarationGroupModeDeclaration_ModeDeclaration" ⟨k!"ModeDeclaration", R.readModeDeclarationGroupModeDeclaration_ModeDeclaration⟩
    .nil))
  k!"readPhysicalChannelISignalTriggerings_ISignalTriggering" ⟨k!"ISignalTriggering", R.readPhysicalChannelISignalTriggerings_ISignalTriggering⟩
  (.node (.node (.node .nil
     k!"readSwcBswSynchronizedTrigger_SwcBswSynchronizedTrigger" ⟨k!"SwcBswSynchronizedTrigger", R.readSwcBswSynchronizedTrigger_SwcBswSynchronizedTrigger⟩
     .nil)
    k!"getEcucInstanceReferenceValue_EcucInstanceReferenceValue" ⟨k!"EcucInstanceReferenceValue", R.getEcucInstanceReferenceValue_EcucInstanceReferenceValue⟩
    .nil)
   k!"readARPackageElements_ComplexDeviceDriverSwComponentType" ⟨k!"ComplexDeviceDriverSwComponentType", R.readARPackageElements_ComplexDeviceDriverSwComponentType⟩
   (.node .nil
    k!"readBswServiceDependencyServiceNeeds_ObdInfoServiceNeeds" ⟨k!"ObdInfoServiceNeeds", R.readBswServiceDependencyServiceNeeds_ObdPidServiceNeeds⟩
    .nil)))
 k!"readClientServerOperationArguments_ArgumentDataPrototype" ⟨k!"ArgumentDataPrototype", R.readClientServerOperationArguments_ArgumentDataPrototype⟩
 (.node (.node (.node (.node .nil
     k!"readCommunicationConnectorEcuCommPortInstances_FramePort" ⟨k!"FramePort", R.readCommunicationConnectorEcuCommPortInstances_FramePort⟩
     .nil)
    k!"readEcuInstanceConnectors_EthernetCommunicationConnector" ⟨k!"EthernetCommunicationConnector", R.readEcuInstanceConnectors_EthernetCommunicationConnector⟩
    .nil)
   k!"readExclusiveAreaNestingOrders_ExclusiveAreaNestingOrder" ⟨k!"ExclusiveAreaNestingOrder", R.readExclusiveAreaNestingOrders_ExclusiveAreaNestingOrder⟩
   (.node .nil
    k!"readSocketAddressApplicationEndpoint_ApplicationEndpoint" ⟨k!"ApplicationEndpoint", R.readSocketAddressApplicationEndpoint_ApplicationEndpoint⟩
    .nil))
  k!"getNonqueuedReceiverComSpec_NonqueuedReceiverComSpec_port" ⟨k!"NonqueuedReceiverComSpec", dropDup R.getNonqueuedReceiverComSpec_NonqueuedReceiverComSpec_port⟩
  (.node (.node .nil
    k!"readBswServiceDependencyServiceNeeds_DiagnosticEventNeeds" ⟨k!"DiagnosticEventNeeds", R.readBswServiceDependencyServiceNeeds_DiagnosticEventNeeds⟩
    .nil)
   k!"readBswServiceDependencyServiceNeeds_DiagnosticValueNeeds" ⟨k!"DiagnosticValueNeeds", R.readBswServiceDependencyServiceNeeds_DiagnosticValueNeeds⟩
   (.node .nil
    k!"readBswServiceDependencyServiceNeeds_EcuStateMgrUserNeeds" ⟨k!"EcuStateMgrUserNeeds", R.readBswServiceDependencyServiceNeeds_BswMgrNeeds⟩
    .nil))))

def readTable43 : Bst (RBody) :=
 .node readTable41 k!"readCommunicationConnectorEcuCommPortInstances_IPduPort" ⟨k!"IPduPort", R.readCommunicationConnectorEcuCommPortInstances_IPduPort⟩ readTable42

def readTable44 : Bst (RBody) :=
 .node readTable40 k!"readPortDefinedArgumentValue_PortDefinedArgumentValue" ⟨k!"PortDefinedArgumentValue", R.readPortDefinedArgumentValue_PortDefinedArgumentValue⟩ readTable43

def readTable45 : Bst (RBody) :=
 .node readTable37 k!"readSwcInternalBehaviorEvents_ModeSwitchedAckEvent" ⟨k!"ModeSwitchedAckEvent", R.readSwcInternalBehaviorEvents_ModeSwitchedAckEvent⟩ readTable44

def readTable46 : Bst (RBody) :=
 (.node (.node (.node (.node (.node .nil
     k!"readBswServiceDependencyServiceNeeds_ObdRatioServiceNeeds" ⟨k!"ObdRatioServiceNeeds", R.readBswServiceDependencyServiceNeeds_ObdRatioServiceNeeds⟩
     .nil)
    k!"readClientServerInterfaceOperations_ClientServerOperation" ⟨k!"ClientServerOperation", R.readClientServerInterfaceOperations_ClientServerOperation⟩
    .nil)
   k!"readDiagEventDebounceAlgorithm_DiagEventDebounceTimeBased" ⟨k!"DiagEventDebounceTimeBased", R.readBswServiceDependencyServiceNeeds_ObdPidServiceNeeds⟩
   (.node .nil
    k!"readEcuInstanceCommControllers_CanCommunicationController" ⟨k!"CanCommunicationController", R.readEcuInstanceCommControllers_CanCommunicationController⟩
    .nil))
  k!"readEcucConditionSpecification_EcucConditionSpecification" ⟨k!"EcucConditionSpecification", R.readEcucConditionSpecification_EcucConditionSpecification⟩
  (.node (.node (.node .nil
     k!"readHwDescriptionEntityHwAttributeValues_HwAttributeValue" ⟨k!"HwAttributeValue", R.readHwDescriptionEntityHwAttributeValues_HwAttributeValue⟩
     .nil)
    k!"readRootSwCompositionPrototype_RootSwCompositionPrototype" ⟨k!"RootSwCompositionPrototype", R.readRootSwCompositionPrototype_RootSwCompositionPrototype⟩
    .nil)
   k!"readSynchronousServerCallPoint_SynchronousServerCallPoint" ⟨k!"SynchronousServerCallPoint", R.readSynchronousServerCallPoint_SynchronousServerCallPoint⟩
   (.node .nil
    k!"getNumericalValueSpecification_NumericalValueSpecification" ⟨k!"NumericalValueSpecification", dropDup R.getNumericalValueSpecification_NumericalValueSpecification⟩
    .nil)))
 k!"getRModeInAtomicSwcInstanceRef_RModeInAtomicSwcInstanceRef" ⟨k!"RModeInAtomicSwcInstanceRef", R.getRModeInAtomicSwcInstanceRef_RModeInAtomicSwcInstanceRef⟩
 (.node (.node (.node (.node .nil
     k!"getRoleBasedDataTypeAssignment_RoleBasedDataTypeAssignment" ⟨k!"RoleBasedDataTypeAssignment", R.getRoleBasedDataTypeAssignment_RoleBasedDataTypeAssignment⟩
     .nil)
    k!"getRuleBasedValueSpecification_RuleBasedValueSpecification" ⟨k!"RuleBasedValueSpecification", R.getRuleBasedValueSpecification_RuleBasedValueSpecification⟩
    .nil)
   k!"getTransmissionModeDeclaration_TransmissionModeDeclaration" ⟨k!"TransmissionModeDeclaration", R.getTransmissionModeDeclaration_TransmissionModeDeclaration⟩
   (.node .nil
    k!"readBswServiceDependencyServiceNeeds_SupervisedEntityNeeds" ⟨k!"SupervisedEntityNeeds", R.readBswServiceDependencyServiceNeeds_SupervisedEntityNeeds⟩
    .nil))
  k!"readCommunicationConnectorEcuCommPortInstances_ISignalPort" ⟨k!"ISignalPort", R.readCommunicationConnectorEcuCommPortInstances_ISignalPort⟩
  (.node (.node (.node .nil
     k!"readEcucContainerDefParameters_EcucMultilineStringParamDef" ⟨k!"EcucMultilineStringParamDef", R.readEcucContainerDefParameters_EcucMultilineStringParamDef⟩
     .nil)
    k!"readPhysicalChannelFrameTriggerings_FlexrayFrameTriggering" ⟨k!"FlexrayFrameTriggering", R.readPhysicalChannelFrameTriggerings_FlexrayFrameTriggering⟩
    .nil)
   k!"readRptExecutableEntityEvent_RptExecutableEntityProperties" ⟨k!"RptExecutableEntityProperties", R.readRptExecutableEntityEvent_RptExecutableEntityProperties⟩
   (.node .nil
    k!"readSwcInternalBehaviorEvents_InternalTriggerOccurredEvent" ⟨k!"InternalTriggerOccurredEvent", R.readSwcInternalBehaviorEvents_ModeSwitchedAckEvent⟩
    .nil))))

def readTable47 : Bst (RBody) :=
 (.node (.node (.node (.node (.node .nil
     k!"readAsynchronousServerCallPoint_AsynchronousServerCallPoint" ⟨k!"AsynchronousServerCallPoint", R.readSynchronousServerCallPoint_SynchronousServerCallPoint⟩
     .nil)
    k!"readBswModuleEntityCallPoints_BswSynchronousServerCallPoint" ⟨k!"BswSynchronousServerCallPoint", R.readBswModuleEntityCallPoints_BswSynchronousServerCallPoint⟩
    .nil)
   k!"readBswServiceDependencyServiceNeeds_DiagnosticRoutineNeeds" ⟨k!"DiagnosticRoutineNeeds", R.readBswServiceDependencyServiceNeeds_DiagnosticRoutineNeeds⟩
   (.node .nil
    k!"readBswServiceDependencyServiceNeeds_ObdControlServiceNeeds" ⟨k!"ObdControlServiceNeeds", R.readBswServiceDependencyServiceNeeds_ObdPidServiceNeeds⟩
    .nil))
  k!"readBswServiceDependencyServiceNeeds_ObdMonitorServiceNeeds" ⟨k!"ObdMonitorServiceNeeds", R.readBswServiceDependencyServiceNeeds_ObdMonitorServiceNeeds⟩
  (.node (.node (.node .nil
     k!"readCommunicationClusterPhysicalChannels_CanPhysicalChannel" ⟨k!"CanPhysicalChannel", R.readCommunicationClusterPhysicalChannels_CanPhysicalChannel⟩
     .nil)
    k!"readCommunicationClusterPhysicalChannels_LinPhysicalChannel" ⟨k!"LinPhysicalChannel", R.readCommunicationClusterPhysicalChannels_LinPhysicalChannel⟩
    .nil)
   k!"readEcucContainerDefReferences_EcucSymbolicNameReferenceDef" ⟨k!"EcucSymbolicNameReferenceDef", R.readEcucContainerDefReferences_EcucReferenceDef⟩
   (.node .nil
    k!"readEcucContainerValueEcucContainerValue_EcucContainerValue" ⟨k!"EcucContainerValue", R.readEcucContainerValueEcucContainerValue_EcucContainerValue⟩
    .nil)))
 k!"readEcucDerivationSpecification_EcucDerivationSpecification" ⟨k!"EcucDerivationSpecification", R.readEcucDerivationSpecification_EcucDerivationSpecification⟩
 (.node (.node (.node (.node .nil
     k!"readEthernetPhysicalChannelNetworkEndPoints_NetworkEndpoint" ⟨k!"NetworkEndpoint", R.readEthernetPhysicalChannelNetworkEndPoints_NetworkEndpoint⟩
     .nil)
    k!"readFlexrayCommunicationController_FlexrayFifoConfiguration" ⟨k!"FlexrayFifoConfiguration", R.readFlexrayCommunicationController_FlexrayFifoConfiguration⟩
    .nil)
   k!"readRModeInAtomicSwcInstanceRef_RModeInAtomicSwcInstanceRef" ⟨k!"RModeInAtomicSwcInstanceRef", R.readRModeInAtomicSwcInstanceRef_RModeInAtomicSwcInstanceRef⟩
   (.node .nil
    k!"readSystemMappingDataMappings_SenderReceiverToSignalMapping" ⟨k!"SenderReceiverToSignalMapping", R.readSystemMappingDataMappings_SenderReceiverToSignalMapping⟩
    .nil))
  k!"readVariationPointProxy_UnlimitedIntegerValueVariationPoint" ⟨k!"UnlimitedIntegerValueVariationPoint", R.readVariationPointProxy_FloatValueVariationPoint⟩
  (.node (.node (.node .nil
     k!"getCanControllerFdConfiguration_CanControllerFdConfiguration" ⟨k!"CanControllerFdConfiguration", R.getCanControllerFdConfiguration_CanControllerFdConfiguration⟩
     .nil)
    k!"getCanControllerXlConfiguration_CanControllerXlConfiguration" ⟨k!"CanControllerXlConfiguration", R.getCanControllerXlConfiguration_CanControllerXlConfiguration⟩
    .nil)
   k!"getComponentInSystemInstanceRef_ComponentInSystemInstanceRef" ⟨k!"ComponentInSystemInstanceRef", R.getComponentInSystemInstanceRef_ComponentInSystemInstanceRef⟩
   (.node .nil
    k!"getEcucValueConfigurationClasses_EcucValueConfigurationClass" ⟨k!"EcucValueConfigurationClass", R.getEcucValueConfigurationClasses_EcucValueConfigurationClass⟩
    .nil))))

def readTable48 : Bst (RBody) :=
 .node readTable46 k!"readVariationPointProxy_PositiveIntegerValueVariationPoint" ⟨k!"PositiveIntegerValueVariationPoint", R.readVariationPointProxy_FloatValueVariationPoint⟩ readTable47

def readTable49 : Bst (RBody) :=
 (.node (.node (.node (.node (.node .nil
     k!"readDiagEventDebounceAlgorithm_DiagEventDebounceCounterBased" ⟨k!"DiagEventDebounceCounterBased", R.readBswServiceDependencyServiceNeeds_ObdPidServiceNeeds⟩
     .nil)
    k!"readSwComponentDocumentationElement_SwComponentDocumentation" ⟨k!"SwComponentDocumentation", R.readSwComponentDocumentationElement_SwComponentDocumentation⟩
    .nil)
   k!"readSwcInternalBehaviorPerInstanceMemories_PerInstanceMemory" ⟨k!"PerInstanceMemory", R.readSwcInternalBehaviorPerInstanceMemories_PerInstanceMemory⟩
   (.node .nil
    k!"readBswInternalBehaviorEvents_BswExternalTriggerOccurredEvent" ⟨k!"BswExternalTriggerOccurredEvent", R.readBswInternalBehaviorEvents_BswExternalTriggerOccurredEvent⟩
    .nil))
  k!"readBswInternalBehaviorEvents_BswInternalTriggerOccurredEvent" ⟨k!"BswInternalTriggerOccurredEvent", R.readBswInternalBehaviorEvents_BswInternalTriggerOccurredEvent⟩
  (.node (.node (.node .nil
     k!"readBswServiceDependencyServiceNeeds_DiagnosticEventInfoNeeds" ⟨k!"DiagnosticEventInfoNeeds", R.readBswServiceDependencyServiceNeeds_DiagnosticEventInfoNeeds⟩
     .nil)
    k!"readBswServiceDependencyServiceNeeds_DiagnosticIoControlNeeds" ⟨k!"DiagnosticIoControlNeeds", R.readBswServiceDependencyServiceNeeds_DiagnosticIoControlNeeds⟩
    .nil)
   k!"readBswServiceDependencyServiceNeeds_ObdRatioDenominatorNeeds" ⟨k!"ObdRatioDenominatorNeeds", R.readBswServiceDependencyServiceNeeds_ObdRatioDenominatorNeeds⟩
   (.node .nil
    k!"readCompositionSwComponentTypeComponents_SwComponentPrototype" ⟨k!"SwComponentPrototype", R.readCompositionSwComponentTypeComponents_SwComponentPrototype⟩
    .nil)))
 k!"readDynamicPartDynamicPartAlternatives_DynamicPartAlternative" ⟨k!"DynamicPartAlternative", R.readDynamicPartDynamicPartAlternatives_DynamicPartAlternative⟩
 (.node (.node (.node (.node .nil
     k!"readEcuInstanceCommControllers_FlexrayCommunicationController" ⟨k!"FlexrayCommunicationController", R.readEcuInstanceCommControllers_FlexrayCommunicationController⟩
     .nil)
    k!"readEcucEnumerationParamDefLiterals_EcucEnumerationLiteralDef" ⟨k!"EcucEnumerationLiteralDef", R.readEcucEnumerationParamDefLiterals_EcucEnumerationLiteralDef⟩
    .nil)
   k!"readEthernetCommunicationControllerCouplingPorts_CouplingPort" ⟨k!"CouplingPort", R.readEthernetCommunicationControllerCouplingPorts_CouplingPort⟩
   (.node .nil
    k!"readSwcBswMappingSwcBswRunnableMappings_SwcBswRunnableMapping" ⟨k!"SwcBswRunnableMapping", R.readSwcBswMappingSwcBswRunnableMappings_SwcBswRunnableMapping⟩
    .nil))
  k!"getApplicationValueSpecification_ApplicationValueSpecification" ⟨k!"ApplicationValueSpecification", dropDup R.getApplicationValueSpecification_ApplicationValueSpecification⟩
  (.node (.node (.node .nil
     k!"readApplicationRecordDataTypeElements_ApplicationRecordElement" ⟨k!"ApplicationRecordElement", R.readApplicationRecordDataTypeElements_ApplicationRecordElement⟩
     .nil)
    k!"readCompositionSwComponentTypeSwConnectors_AssemblySwConnector" ⟨k!"AssemblySwConnector", R.readCompositionSwComponentTypeSwConnectors_AssemblySwConnector⟩
    .nil)
   k!"readEcuInstanceCommControllers_EthernetCommunicationController" ⟨k!"EthernetCommunicationController", R.readEcuInstanceCommControllers_EthernetCommunicationController⟩
   (.node .nil
    k!"readMcDataInstance_ImplementationElementInParameterInstanceRef" ⟨k!"ImplementationElementInParameterInstanceRef", R.readMcDataInstance_ImplementationElementInParameterInstanceRef⟩
    .nil))))

def readTable50 : Bst (RBody) :=
 (.node (.node (.node (.node (.node .nil
     k!"readPortInterfaceMappings_VariableAndParameterInterfaceMapping" ⟨k!"VariableAndParameterInterfaceMapping", R.readPortInterfaceMappings_VariableAndParameterInterfaceMapping⟩
     .nil)
    k!"readBswInternalBehaviorServiceDependencies_BswServiceDependency" ⟨k!"BswServiceDependency", R.readBswInternalBehaviorServiceDependencies_BswServiceDependency⟩
    .nil)
   k!"readCommunicationClusterPhysicalChannels_FlexrayPhysicalChannel" ⟨k!"FlexrayPhysicalChannel", R.readCommunicationClusterPhysicalChannels_FlexrayPhysicalChannel⟩
   (.node .nil
    k!"readDataTransformationSetDataTransformations_DataTransformation" ⟨k!"DataTransformation", R.readDataTransformationSetDataTransformations_DataTransformation⟩
    .nil))
  k!"readDiagEventDebounceAlgorithm_DiagEventDebounceMonitorInternal" ⟨k!"DiagEventDebounceMonitorInternal", R.readBswServiceDependencyServiceNeeds_ObdPidServiceNeeds⟩
  (.node (.node (.node .nil
     k!"readTransformationISignalProps_DataPrototypeTransformationProps" ⟨k!"DataPrototypeTransformationProps", R.readTransformationISignalProps_DataPrototypeTransformationProps⟩
     .nil)
    k!"getCompositeNetworkRepresentation_CompositeNetworkRepresentation" ⟨k!"CompositeNetworkRepresentation", R.getCompositeNetworkRepresentation_CompositeNetworkRepresentation⟩
    .nil)
   k!"getMultiLanguageOverviewParagraph_MultiLanguageOverviewParagraph" ⟨k!"MultiLanguageOverviewParagraph", R.getMultiLanguageOverviewParagraph_MultiLanguageOverviewParagraph⟩
   (.node .nil
    k!"getSocketConnectionIpduIdentifier_SocketConnectionIpduIdentifier" ⟨k!"SocketConnectionIpduIdentifier", R.getSocketConnectionIpduIdentifier_SocketConnectionIpduIdentifier⟩
    .nil)))
 k!"getTransformationComSpecProps_EndToEndTransformationComSpecProps" ⟨k!"EndToEndTransformationComSpecProps", R.readPaginateable⟩
 (.node (.node (.node (.node .nil
     k!"readAtomicSwComponentTypeSwcInternalBehavior_SwcInternalBehavior" ⟨k!"SwcInternalBehavior", R.readAtomicSwComponentTypeSwcInternalBehavior_SwcInternalBehavior⟩
     .nil)
    k!"readBswModuleDescriptionBswInternalBehaviors_BswInternalBehavior" ⟨k!"BswInternalBehavior", R.readBswModuleDescriptionBswInternalBehaviors_BswInternalBehavior⟩
    .nil)
   k!"readCommunicationClusterPhysicalChannels_EthernetPhysicalChannel" ⟨k!"EthernetPhysicalChannel", R.readCommunicationClusterPhysicalChannels_EthernetPhysicalChannel⟩
   (.node .nil
    k!"readCompositionSwComponentTypeSwConnectors_DelegationSwConnector" ⟨k!"DelegationSwConnector", R.readCompositionSwComponentTypeSwConnectors_DelegationSwConnector⟩
    .nil))
  k!"readSwcBswSynchronizedTrigger_PTriggerInAtomicSwcTypeInstanceRef" ⟨k!"PTriggerInAtomicSwcTypeInstanceRef", R.readSwcBswSynchronizedTrigger_PTriggerInAtomicSwcTypeInstanceRef⟩
  (.node (.node (.node .nil
     k!"readSwcInternalBehaviorEvents_AsynchronousServerCallReturnsEvent" ⟨k!"AsynchronousServerCallReturnsEvent", R.readSwcInternalBehaviorEvents_DataSendCompletedEvent⟩
     .nil)
    k!"readSwcInternalBehaviorVariationPointProxies_VariationPointProxy" ⟨k!"VariationPointProxy", R.readSwcInternalBehaviorVariationPointProxies_VariationPointProxy⟩
    .nil)
   k!"readSystemMappingDataMappings_SenderReceiverToSignalGroupMapping" ⟨k!"SenderReceiverToSignalGroupMapping", R.readSystemMappingDataMappings_SenderReceiverToSignalGroupMapping⟩
   (.node .nil
    k!"readAssemblySwConnectorProviderIRef_PPortInCompositionInstanceRef" ⟨k!"PPortInCompositionInstanceRef", R.readAssemblySwConnectorProviderIRef_PPortInCompositionInstanceRef⟩
    .nil))))

def readTable51 : Bst (RBody) :=
 .node readTable49 k!"readModeSwitchInterfaceModeGroup_ModeDeclarationGroupPrototype" ⟨k!"ModeDeclarationGroupPrototype", R.readModeSwitchInterfaceModeGroup_ModeDeclarationGroupPrototype⟩ readTable50

def readTable52 : Bst (RBody) :=
 .node readTable48 k!"readBswModuleEntityCallPoints_BswAsynchronousServerCallPoint" ⟨k!"BswAsynchronousServerCallPoint", R.readBswModuleEntityCallPoints_BswSynchronousServerCallPoint⟩ readTable51

def readTable53 : Bst (RBody) :=
 (.node (.node (.node (.node (.node .nil
     k!"readCompositionSwComponentTypeSwConnectors_PassThroughSwConnector" ⟨k!"PassThroughSwConnector", R.readCompositionSwComponentTypeSwConnectors_PassThroughSwConnector⟩
     .nil)
    k!"readConsumedServiceInstanceConsumedEventGroups_ConsumedEventGroup" ⟨k!"ConsumedEventGroup", R.readConsumedServiceInstanceConsumedEventGroups_ConsumedEventGroup⟩
    .nil)
   k!"readEcucParameterDerivationFormula_EcucParameterDerivationFormula" ⟨k!"EcucParameterDerivationFormula", R.readEcucConditionFormula_EcucConditionFormula⟩
   (.node .nil
    k!"readAssemblySwConnectorRequesterIRef_RPortInCompositionInstanceRef" ⟨k!"RPortInCompositionInstanceRef", R.readAssemblySwConnectorRequesterIRef_RPortInCompositionInstanceRef⟩
    .nil))
  k!"readBswServiceDependencyServiceNeeds_DiagnosticOperationCycleNeeds" ⟨k!"DiagnosticOperationCycleNeeds", R.readBswServiceDependencyServiceNeeds_DiagnosticOperationCycleNeeds⟩
  (.node (.node (.node .nil
     k!"readRunnableEntityExternalTriggeringPoints_ExternalTriggeringPoint" ⟨k!"ExternalTriggeringPoint", R.readRunnableEntityExternalTriggeringPoints_ExternalTriggeringPoint⟩
     .nil)
    k!"readRunnableEntityInternalTriggeringPoints_InternalTriggeringPoint" ⟨k!"InternalTriggeringPoint", R.readRunnableEntityInternalTriggeringPoints_InternalTriggeringPoint⟩
    .nil)
   k!"readSenderReceiverInterfaceInvalidationPolicies_InvalidationPolicy" ⟨k!"InvalidationPolicy", R.readSenderReceiverInterfaceInvalidationPolicies_InvalidationPolicy⟩
   (.node .nil
    k!"readSignalServiceTranslationPropsSet_SignalServiceTranslationProps" ⟨k!"SignalServiceTranslationProps", R.readSignalServiceTranslationPropsSet_SignalServiceTranslationProps⟩
    .nil)))
 k!"readTransformationComSpecPropss_EndToEndTransformationComSpecProps" ⟨k!"EndToEndTransformationComSpecProps", R.readTransformationComSpecPropss_EndToEndTransformationComSpecProps⟩
 (.node (.node (.node (.node .nil
     k!"getIncludedModeDeclarationGroupSets_IncludedModeDeclarationGroupSet" ⟨k!"IncludedModeDeclarationGroupSet", R.getIncludedModeDeclarationGroupSets_IncludedModeDeclarationGroupSet⟩
     .nil)
    k!"getTransformationComSpecProps_UserDefinedTransformationComSpecProps" ⟨k!"UserDefinedTransformationComSpecProps", R.getTransformationComSpecProps_UserDefinedTransformationComSpecProps⟩
    .nil)
   k!"readBswInternalBehaviorEvents_BswAsynchronousServerCallReturnsEvent" ⟨k!"BswAsynchronousServerCallReturnsEvent", R.readBswInternalBehaviorEvents_BswAsynchronousServerCallReturnsEvent⟩
   (.node .nil
    k!"readBswServiceDependencyServiceNeeds_DiagnosticEnableConditionNeeds" ⟨k!"DiagnosticEnableConditionNeeds", R.readBswServiceDependencyServiceNeeds_DiagnosticEnableConditionNeeds⟩
    .nil))
  k!"readImplementationDataTypeSubElements_ImplementationDataTypeElement" ⟨k!"ImplementationDataTypeElement", R.readImplementationDataTypeSubElements_ImplementationDataTypeElement⟩
  (.node (.node (.node .nil
     k!"readPortGroupInnerGroupIRefs_InnerPortGroupInCompositionInstanceRef" ⟨k!"InnerPortGroupInCompositionInstanceRef", R.readPortGroupInnerGroupIRefs_InnerPortGroupInCompositionInstanceRef⟩
     .nil)
    k!"readRVariableInAtomicSwcInstanceRef_RVariableInAtomicSwcInstanceRef" ⟨k!"RVariableInAtomicSwcInstanceRef", R.readRVariableInAtomicSwcInstanceRef_RVariableInAtomicSwcInstanceRef⟩
    .nil)
   k!"readSwcInternalBehaviorExclusiveAreaPolicies_SwcExclusiveAreaPolicy" ⟨k!"SwcExclusiveAreaPolicy", R.readSwcInternalBehaviorExclusiveAreaPolicies_SwcExclusiveAreaPolicy⟩
   (.node .nil
    k!"getModeSwitchEventTriggeredActivity_ModeSwitchEventTriggeredActivity" ⟨k!"ModeSwitchEventTriggeredActivity", R.getModeSwitchEventTriggeredActivity_ModeSwitchEventTriggeredActivity⟩
    .nil))))

def readTable54 : Bst (RBody) :=
 (.node (.node (.node (.node (.node .nil
     k!"readBswServiceDependencyServiceNeeds_SecureOnBoardCommunicationNeeds" ⟨k!"SecureOnBoardCommunicationNeeds", R.readBswServiceDependencyServiceNeeds_SecureOnBoardCommunicationNeeds⟩
     .nil)
    k!"readDataPrototypeTransformationProps_DataPrototypeInPortInterfaceRef" ⟨k!"DataPrototypeInPortInterfaceRef", R.readDataPrototypeTransformationProps_DataPrototypeInPortInterfaceRef⟩
    .nil)
   k!"readDelegationSwConnectorInnerPortIRef_PPortInCompositionInstanceRef" ⟨k!"PPortInCompositionInstanceRef", R.readDelegationSwConnectorInnerPortIRef_PPortInCompositionInstanceRef⟩
   (.node .nil
    k!"readDelegationSwConnectorInnerPortIRef_RPortInCompositionInstanceRef" ⟨k!"RPortInCompositionInstanceRef", R.readDelegationSwConnectorInnerPortIRef_RPortInCompositionInstanceRef⟩
    .nil))
  k!"readInstantiationRTEEventProps_InstanceEventInCompositionInstanceRef" ⟨k!"InstanceEventInCompositionInstanceRef", R.readInstantiationRTEEventProps_InstanceEventInCompositionInstanceRef⟩
  (.node (.node (.node .nil
     k!"readSignalServiceTranslationProps_SignalServiceTranslationEventProps" ⟨k!"SignalServiceTranslationEventProps", R.readSignalServiceTranslationProps_SignalServiceTranslationEventProps⟩
     .nil)
    k!"readBswInternalBehaviorReceptionPolicies_BswQueuedDataReceptionPolicy" ⟨k!"BswQueuedDataReceptionPolicy", R.readBswInternalBehaviorReceptionPolicies_BswQueuedDataReceptionPolicy⟩
    .nil)
   k!"readBswServiceDependencyServiceNeeds_DtcStatusChangeNotificationNeeds" ⟨k!"DtcStatusChangeNotificationNeeds", R.readBswServiceDependencyServiceNeeds_DtcStatusChangeNotificationNeeds⟩
   (.node .nil
    k!"readSwSystemconstantValueSetSwSystemconstantValues_SwSystemconstValue" ⟨k!"SwSystemconstValue", R.readSwSystemconstantValueSetSwSystemconstantValues_SwSystemconstValue⟩
    .nil)))
 k!"getRoleBasedBswModuleEntryAssignment_RoleBasedBswModuleEntryAssignment" ⟨k!"RoleBasedBswModuleEntryAssignment", R.getRoleBasedBswModuleEntryAssignment_RoleBasedBswModuleEntryAssignment⟩
 (.node (.node (.node (.node .nil
     k!"readCouplingPortDetailsCouplingPortStructuralElements_CouplingPortFifo" ⟨k!"CouplingPortFifo", R.readBswServiceDependencyServiceNeeds_BswMgrNeeds⟩
     .nil)
    k!"readFlexrayAbsolutelyScheduledTimingCommunicationCycle_CycleRepetition" ⟨k!"CycleRepetition", R.readFlexrayAbsolutelyScheduledTimingCommunicationCycle_CycleRepetition⟩
    .nil)
   k!"readRunnableEntityExternalTriggeringPoints_ExternalTriggeringPointIdent" ⟨k!"ExternalTriggeringPointIdent", R.readSdgCaption_SdgCaption⟩
   (.node .nil
    k!"getVariableInAtomicSWCTypeInstanceRef_VariableInAtomicSWCTypeInstanceRef" ⟨k!"VariableInAtomicSWCTypeInstanceRef", R.getVariableInAtomicSWCTypeInstanceRef_VariableInAtomicSWCTypeInstanceRef⟩
    .nil))
  k!"readBswServiceDependencyServiceNeeds_DiagnosticCommunicationManagerNeeds" ⟨k!"DiagnosticCommunicationManagerNeeds", R.readBswServiceDependencyServiceNeeds_DiagnosticCommunicationManagerNeeds⟩
  (.node (.node (.node .nil
     k!"readBswServiceDependencyServiceNeeds_FunctionInhibitionAvailabilityNeeds" ⟨k!"FunctionInhibitionAvailabilityNeeds", R.readBswServiceDependencyServiceNeeds_FunctionInhibitionAvailabilityNeeds⟩
     .nil)
    k!"readISignalTransformationISignalProps_EndToEndTransformationISignalProps" ⟨k!"EndToEndTransformationISignalProps", R.readISignalTransformationISignalProps_EndToEndTransformationISignalProps⟩
    .nil)
   k!"readModeInterfaceMappingModeMapping_ModeDeclarationGroupPrototypeMapping" ⟨k!"ModeDeclarationGroupPrototypeMapping", R.readModeInterfaceMappingModeMapping_ModeDeclarationGroupPrototypeMapping⟩
   (.node .nil
    k!"readTransmissionAcknowledgementRequest_TransmissionAcknowledgementRequest" ⟨k!"TransmissionAcknowledgementRequest", R.readTransmissionAcknowledgementRequest_TransmissionAcknowledgementRequest⟩
    .nil))))

def readTable55 : Bst (RBody) :=
 .node readTable53 k!"readBswServiceDependencyServiceNeeds_DiagnosticStorageConditionNeeds" ⟨k!"DiagnosticStorageConditionNeeds", R.readBswServiceDependencyServiceNeeds_DiagnosticEnableConditionNeeds⟩ readTable54

def readTable56 : Bst (RBody) :=
 (.node (.node (.node (.node (.node .nil
     k!"getParameterInAtomicSWCTypeInstanceRef_ParameterInAtomicSWCTypeInstanceRef" ⟨k!"ParameterInAtomicSWCTypeInstanceRef", R.getParameterInAtomicSWCTypeInstanceRef_ParameterInAtomicSWCTypeInstanceRef⟩
     .nil)
    k!"readBswInternalBehaviorInternalTriggeringPoints_BswInternalTriggeringPoint" ⟨k!"BswInternalTriggeringPoint", R.readARPackageElements_TriggerInterface⟩
    .nil)
   k!"readBswServiceDependencyServiceNeeds_DoIpRoutingActivationConfirmationNeeds" ⟨k!"DoIpRoutingActivationConfirmationNeeds", R.readBswServiceDependencyServiceNeeds_DoIpRoutingActivationConfirmationNeeds⟩
   (.node .nil
    k!"readCouplingPortDetailsCouplingPortStructuralElements_CouplingPortScheduler" ⟨k!"CouplingPortScheduler", R.readCouplingPortDetailsCouplingPortStructuralElements_CouplingPortScheduler⟩
    .nil))
  k!"readModeDeclarationMappingSetModeDeclarationMappings_ModeDeclarationMapping" ⟨k!"ModeDeclarationMapping", R.readModeDeclarationMappingSetModeDeclarationMappings_ModeDeclarationMapping⟩
  (.node (.node (.node .nil
     k!"readSignalServiceTranslationEventProps_SignalServiceTranslationElementProps" ⟨k!"SignalServiceTranslationElementProps", R.readSignalServiceTranslationEventProps_SignalServiceTranslationElementProps⟩
     .nil)
    k!"getCompositeRuleBasedValueSpecification_CompositeRuleBasedValueSpecification" ⟨k!"CompositeRuleBasedValueSpecification", R.getCompositeRuleBasedValueSpecification_CompositeRuleBasedValueSpecification⟩
    .nil)
   k!"readDataTransformationSetTransformationTechnologies_TransformationTechnology" ⟨k!"TransformationTechnology", R.readDataTransformationSetTransformationTechnologies_TransformationTechnology⟩
   (.node .nil
    k!"readSenderReceiverToSignalGroupMappingTypeMapping_SenderRecRecordTypeMapping" ⟨k!"SenderRecRecordTypeMapping", R.readSenderReceiverToSignalGroupMappingTypeMapping_SenderRecRecordTypeMapping⟩
    .nil)))
 k!"readBswServiceDependencyServiceNeeds_DoIpRoutingActivationAuthenticationNeeds" ⟨k!"DoIpRoutingActivationAuthenticationNeeds", R.readBswServiceDependencyServiceNeeds_DoIpRoutingActivationConfirmationNeeds⟩
 (.node (.node (.node (.node .nil
     k!"readSwcBswSynchronizedModeGroupPrototype_SwcBswSynchronizedModeGroupPrototype" ⟨k!"SwcBswSynchronizedModeGroupPrototype", R.readSwcBswSynchronizedModeGroupPrototype_SwcBswSynchronizedModeGroupPrototype⟩
     .nil)
    k!"getModeInBswModuleDescriptionInstanceRef_ModeInBswModuleDescriptionInstanceRef" ⟨k!"ModeInBswModuleDescriptionInstanceRef", R.getModeInBswModuleDescriptionInstanceRef_ModeInBswModuleDescriptionInstanceRef⟩
    .nil)
   k!"readBswModuleDescriptionProvidedClientServerEntries_BswModuleClientServerEntry" ⟨k!"BswModuleClientServerEntry", R.readBswModuleDescriptionProvidedClientServerEntries_BswModuleClientServerEntry⟩
   (.node .nil
    k!"readClientServerInterfaceMappingOperationMappings_ClientServerOperationMapping" ⟨k!"ClientServerOperationMapping", R.readClientServerInterfaceMappingOperationMappings_ClientServerOperationMapping⟩
    .nil))
  k!"readSecureCommunicationPropsSetFreshnessProps_SecureCommunicationFreshnessProps" ⟨k!"SecureCommunicationFreshnessProps", R.readSecureCommunicationPropsSetFreshnessProps_SecureCommunicationFreshnessProps⟩
  (.node (.node (.node .nil
     k!"readSenderRecArrayTypeMappingRecordElementMapping_SenderRecRecordElementMapping" ⟨k!"SenderRecRecordElementMapping", R.readSenderRecArrayTypeMappingRecordElementMapping_SenderRecRecordElementMapping⟩
     .nil)
    k!"getApplicationRuleBasedValueSpecification_ApplicationRuleBasedValueSpecification" ⟨k!"ApplicationRuleBasedValueSpecification", R.getApplicationRuleBasedValueSpecification_ApplicationRuleBasedValueSpecification⟩
    .nil)
   k!"readCouplingPortDetailsEthernetPriorityRegenerations_EthernetPriorityRegeneration" ⟨k!"EthernetPriorityRegeneration", R.readCouplingPortDetailsEthernetPriorityRegenerations_EthernetPriorityRegeneration⟩
   (.node .nil
    k!"readRunnableEntityGroupRunnableEntityIRefs_RunnableEntityInCompositionInstanceRef" ⟨k!"RunnableEntityInCompositionInstanceRef", R.readRunnableEntityGroupRunnableEntityIRefs_RunnableEntityInCompositionInstanceRef⟩
    .nil))))

def readTable57 : Bst (RBody) :=
 (.node (.node (.node (.node (.node .nil
     k!"readDataPrototypeInPortInterfaceRef_DataPrototypeInClientServerInterfaceInstanceRef" ⟨k!"DataPrototypeInClientServerInterfaceInstanceRef", R.readDataPrototypeInPortInterfaceRef_DataPrototypeInClientServerInterfaceInstanceRef⟩
     .nil)
    k!"readSocketAddressApplicationEndpointProvidedServiceInstance_ProvidedServiceInstance" ⟨k!"ProvidedServiceInstance", R.readSocketAddressApplicationEndpointProvidedServiceInstance_ProvidedServiceInstance⟩
    .nil)
   k!"getCanControllerFdConfigurationRequirements_CanControllerFdConfigurationRequirements" ⟨k!"CanControllerFdConfigurationRequirements", R.getCanControllerFdConfigurationRequirements_CanControllerFdConfigurationRequirements⟩
   (.node .nil
    k!"getCanControllerXlConfigurationRequirements_CanControllerXlConfigurationRequirements" ⟨k!"CanControllerXlConfigurationRequirements", R.getCanControllerXlConfigurationRequirements_CanControllerXlConfigurationRequirements⟩
    .nil))
  k!"getVariableDataPrototypeInSystemInstanceRef_VariableDataPrototypeInSystemInstanceRef" ⟨k!"VariableDataPrototypeInSystemInstanceRef", R.getVariableDataPrototypeInSystemInstanceRef_VariableDataPrototypeInSystemInstanceRef⟩
  (.node (.node (.node .nil
     k!"readSocketAddressApplicationEndpointConsumedServiceInstances_ConsumedServiceInstance" ⟨k!"ConsumedServiceInstance", R.readSocketAddressApplicationEndpointConsumedServiceInstances_ConsumedServiceInstance⟩
     .nil)
    k!"readFlexrayFrameTriggeringAbsolutelyScheduledTimings_FlexrayAbsolutelyScheduledTiming" ⟨k!"FlexrayAbsolutelyScheduledTiming", R.readFlexrayFrameTriggeringAbsolutelyScheduledTimings_FlexrayAbsolutelyScheduledTiming⟩
    .nil)
   k!"readRunnableEntityAsynchronousServerCallResultPoint_AsynchronousServerCallResultPoint" ⟨k!"AsynchronousServerCallResultPoint", R.readRunnableEntityAsynchronousServerCallResultPoint_AsynchronousServerCallResultPoint⟩
   (.node .nil
    k!"readCompositionSwComponentTypeInstantiationRTEEventProps_InstantiationTimingEventProps" ⟨k!"InstantiationTimingEventProps", R.readCompositionSwComponentTypeInstantiationRTEEventProps_InstantiationTimingEventProps⟩
    .nil)))
 k!"readSwcInternalBehaviorIncludedModeDeclarationGroupSets_IncludedModeDeclarationGroupSet" ⟨k!"IncludedModeDeclarationGroupSet", R.readSwcInternalBehaviorIncludedModeDeclarationGroupSets_IncludedModeDeclarationGroupSet⟩
 (.node (.node (.node (.node .nil
     k!"readTransformationTechnologyTransformationDescriptions_EndToEndTransformationDescription" ⟨k!"EndToEndTransformationDescription", R.readTransformationTechnologyTransformationDescriptions_EndToEndTransformationDescription⟩
     .nil)
    k!"readSecureCommunicationPropsSetAuthenticationProps_SecureCommunicationAuthenticationProps" ⟨k!"SecureCommunicationAuthenticationProps", R.readSecureCommunicationPropsSetAuthenticationProps_SecureCommunicationAuthenticationProps⟩
    .nil)
   k!"readDataPrototypeGroupImplicitDataAccessIRefs_VariableDataPrototypeInCompositionInstanceRef" ⟨k!"VariableDataPrototypeInCompositionInstanceRef", R.readDataPrototypeGroupImplicitDataAccessIRefs_VariableDataPrototypeInCompositionInstanceRef⟩
   (.node .nil
    k!"readDataPrototypeGroupDataPrototypeGroupIRefs_InnerDataPrototypeGroupInCompositionInstanceRef" ⟨k!"InnerDataPrototypeGroupInCompositionInstanceRef", R.readDataPrototypeGroupDataPrototypeGroupIRefs_InnerDataPrototypeGroupInCompositionInstanceRef⟩
    .nil))
  k!"readEndToEndProtectionEndToEndProtectionVariablePrototypes_EndToEndProtectionVariablePrototype" ⟨k!"EndToEndProtectionVariablePrototype", R.readEndToEndProtectionEndToEndProtectionVariablePrototypes_EndToEndProtectionVariablePrototype⟩
  (.node (.node .nil
    k!"readRunnableEntityGroupRunnableEntityGroupIRefs_InnerRunnableEntityGroupInCompositionInstanceRef" ⟨k!"InnerRunnableEntityGroupInCompositionInstanceRef", R.readRunnableEntityGroupRunnableEntityGroupIRefs_InnerRunnableEntityGroupInCompositionInstanceRef⟩
    .nil)
   k!"readAbstractCanCommunicationControllerCanControllerAttributes_CanControllerConfigurationRequirements" ⟨k!"CanControllerConfigurationRequirements", R.readAbstractCanCommunicationControllerCanControllerAttributes_CanControllerConfigurationRequirements⟩
   (.node .nil
    k!"getApplicationCompositeElementInPortInterfaceInstanceRef_ApplicationCompositeElementInPortInterfaceInstanceRef" ⟨k!"ApplicationCompositeElementInPortInterfaceInstanceRef", R.getApplicationCompositeElementInPortInterfaceInstanceRef_ApplicationCompositeElementInPortInterfaceInstanceRef⟩
    .nil))))

def readTable58 : Bst (RBody) :=
 .node readTable56 k!"readEndToEndProtectionEndToEndProtectionISignalIPdus_EndToEndProtectionISignalIPdu" ⟨k!"EndToEndProtectionISignalIPdu", R.readEndToEndProtectionEndToEndProtectionISignalIPdus_EndToEndProtectionISignalIPdu⟩ readTable57

def readTable59 : Bst (RBody) :=
 .node readTable55 k!"getEcucMultiplicityConfigurationClasses_EcucMultiplicityConfigurationClass" ⟨k!"EcucMultiplicityConfigurationClass", R.getEcucValueConfigurationClasses_EcucValueConfigurationClass⟩ readTable58

def readTable60 : Bst (RBody) :=
 .node readTable52 k!"readBswModuleDescriptionBswModuleDependencies_BswModuleDependency" ⟨k!"BswModuleDependency", R.readBswModuleDescriptionBswModuleDependencies_BswModuleDependency⟩ readTable59

def readTable61 : Bst (RBody) :=
 .node readTable45 k!"readBswServiceDependencyServiceNeeds_IndicatorStatusNeeds" ⟨k!"IndicatorStatusNeeds", R.readBswServiceDependencyServiceNeeds_IndicatorStatusNeeds⟩ readTable60

def readTable62 : Bst (RBody) :=
 .node readTable30 k!"readSwcServiceDependency_SwcServiceDependency" ⟨k!"SwcServiceDependency", R.readSwcServiceDependency_SwcServiceDependency⟩ readTable61

/-- the objects the reader makes: the class and the method that fills the new object -/
def readTable : Bst (RBody) := readTable62

end Verif.Gen
