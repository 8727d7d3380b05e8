import Verif.Gen.Write5
-- generated by tools/gen_codec.py; do not edit
namespace Verif.Gen.W
open Verif Verif.Model

/-- `writeKeywordSetKeywords`, `writer/arxml_writer.py:6933-6941` -/
def writeKeywordSetKeywords_KeywordSet : WB :=
  /- 6936 -/ .wrap (.any [(k!"keywords", [])]) k!"KEYWORDS" (
    /- 6939 -/ .each k!"keywords" [] .plain [⟨[(false, [k!"Keyword"])], [], k!"writeKeyword_Keyword"⟩] .unsupported <|
    .nil) <|
  .nil

/-- `writeKeywordSet`, `writer/arxml_writer.py:6943-6948` -/
def writeKeywordSet_KeywordSet : WB :=
  /- 6946 -/ .wrap .always k!"KEYWORD-SET" (
    /- 6947 -/ writeARElement_System.app <|
    /- 6948 -/ writeKeywordSetKeywords_KeywordSet.app <|
    .nil) <|
  .nil

/-- `writeKeyword`, `writer/arxml_writer.py:6925-6931` -/
def writeKeyword_Keyword : WB :=
  /- 6928 -/ .wrap .always k!"KEYWORD" (
    /- 6929 -/ writeIdentifiable_ARPackage.app <|
    /- 6930 -/ .prim k!"ABBR-NAME" .lit k!"abbrName" <|
    /- 6931 -/ writeKeywordClassifications_Keyword.app <|
    .nil) <|
  .nil

/-- `writeLParagraphs`, `writer/arxml_writer.py:1803-1809` (the block at line 1805) -/
def writeLParagraphs_MultiLanguageParagraph_L1805 : WB :=
  /- 1805 -/ .wrap .always k!"L-1" (
    /- 1806 -/ .attr k!"T" .raw k!"timestamp" <|
    /- 1806 -/ .attr k!"UUID" .raw k!"uuid" <|
    /- 1808 -/ .attr k!"L" .raw k!"l" <|
    /- 1809 -/ .when (.any [(k!"l", [])]) (
      /- 1809 -/ .text .raw k!"value" <|
      .nil) <|
    .nil) <|
  .nil

/-- `writeLifeCycleInfoSetLifeCycleInfos`, `writer/arxml_writer.py:8654-8662` -/
def writeLifeCycleInfoSetLifeCycleInfos_LifeCycleInfoSet : WB :=
  /- 8657 -/ .wrap (.any [(k!"lifeCycleInfos", [])]) k!"LIFE-CYCLE-INFOS" (
    /- 8660 -/ .each k!"lifeCycleInfos" [] .plain [⟨[(false, [k!"LifeCycleInfo"])], [], k!"writeLifeCycleInfo_LifeCycleInfo"⟩] .unsupported <|
    .nil) <|
  .nil

/-- `writeLifeCycleInfoSet`, `writer/arxml_writer.py:8664-8671` -/
def writeLifeCycleInfoSet_LifeCycleInfoSet : WB :=
  /- 8667 -/ .wrap .always k!"LIFE-CYCLE-INFO-SET" (
    /- 8668 -/ writeIdentifiable_ARPackage.app <|
    /- 8669 -/ .prim k!"DEFAULT-LC-STATE-REF" .ref k!"defaultLcStateRef" <|
    /- 8670 -/ writeLifeCycleInfoSetLifeCycleInfos_LifeCycleInfoSet.app <|
    /- 8671 -/ .prim k!"USED-LIFE-CYCLE-STATE-DEFINITION-GROUP-REF" .ref k!"usedLifeCycleStateDefinitionGroupRef" <|
    .nil) <|
  .nil

/-- `writeLifeCycleInfoUseInsteadRefs`, `writer/arxml_writer.py:8637-8642` -/
def writeLifeCycleInfoUseInsteadRefs_LifeCycleInfo : WB :=
  /- 8640 -/ .wrap (.any [(k!"useInsteadRefs", [])]) k!"USE-INSTEAD-REFS" (
    /- 8642 -/ .prim k!"USE-INSTEAD-REF" .ref k!"useInsteadRefs" <|
    .nil) <|
  .nil

/-- `writeLifeCycleInfo`, `writer/arxml_writer.py:8644-8652` -/
def writeLifeCycleInfo_LifeCycleInfo : WB :=
  /- 8646 -/ .wrap .always k!"LIFE-CYCLE-INFO" (
    /- 8647 -/ .attr k!"T" .raw k!"timestamp" <|
    /- 8647 -/ .attr k!"UUID" .raw k!"uuid" <|
    /- 8648 -/ .prim k!"LC-OBJECT-REF" .ref k!"lcObjectRef" <|
    /- 8649 -/ .prim k!"LC-STATE-REF" .ref k!"lcStateRef" <|
    /- 8650 -/ .each k!"periodBegin" [] .plain [⟨[], [], k!"setLifeCyclePeriod_PERIOD_BEGIN_LifeCyclePeriod"⟩] .skip <|
    /- 8651 -/ .each k!"remark" [] .plain [⟨[], [], k!"writeDocumentationBlock_REMARK_DocumentationBlock"⟩] .skip <|
    /- 8652 -/ writeLifeCycleInfoUseInsteadRefs_LifeCycleInfo.app <|
    .nil) <|
  .nil

/-- `writeLinCluster`, `writer/arxml_writer.py:6828-6836` -/
def writeLinCluster_LinCluster : WB :=
  /- 6831 -/ .wrap .always k!"LIN-CLUSTER" (
    /- 6832 -/ writeIdentifiable_ARPackage.app <|
    /- 6834 -/ .wrap .always k!"LIN-CLUSTER-VARIANTS" (
      /- 6835 -/ .wrap .always k!"LIN-CLUSTER-CONDITIONAL" (
        /- 6836 -/ writeCommunicationCluster_CommunicationCluster.app <|
        .nil) <|
      .nil) <|
    .nil) <|
  .nil

/-- `writeLinCommunicationController`, `writer/arxml_writer.py:9059-9061` -/
def writeLinCommunicationController_LinCommunicationController : WB :=
  /- 9060 -/ writeCommunicationController_CommunicationController.app <|
  /- 9061 -/ .prim k!"PROTOCOL-VERSION" .lit k!"protocolVersion" <|
  .nil

/-- `writeLinFrameTriggering`, `writer/arxml_writer.py:6249-6254` -/
def writeLinFrameTriggering_LinFrameTriggering : WB :=
  /- 6251 -/ .wrap .always k!"LIN-FRAME-TRIGGERING" (
    /- 6252 -/ writeFrameTriggering_FrameTriggering.app <|
    /- 6253 -/ .prim k!"IDENTIFIER" .numerical k!"identifier" <|
    /- 6254 -/ .prim k!"LIN-CHECKSUM" .lit k!"linChecksum" <|
    .nil) <|
  .nil

/-- `writeLinMaster`, `writer/arxml_writer.py:9063-9071` -/
def writeLinMaster_LinMaster : WB :=
  /- 9065 -/ .wrap .always k!"LIN-MASTER" (
    /- 9066 -/ writeIdentifiable_ARPackage.app <|
    /- 9067 -/ .wrap .always k!"LIN-MASTER-VARIANTS" (
      /- 9068 -/ .wrap .always k!"LIN-MASTER-CONDITIONAL" (
        /- 9069 -/ writeLinCommunicationController_LinCommunicationController.app <|
        /- 9070 -/ .prim k!"TIME-BASE" .lit k!"timeBase" <|
        /- 9071 -/ .prim k!"TIME-BASE-JITTER" .lit k!"timeBaseJitter" <|
        .nil) <|
      .nil) <|
    .nil) <|
  .nil

/-- `writeLinPhysicalChannelScheduleTables`, `writer/arxml_writer.py:6413-6421` -/
def writeLinPhysicalChannelScheduleTables_LinPhysicalChannel : WB :=
  /- 6416 -/ .wrap (.any [(k!"scheduleTables", [])]) k!"SCHEDULE-TABLES" (
    /- 6419 -/ .each k!"scheduleTables" [] .plain [⟨[(false, [k!"LinScheduleTable"])], [], k!"writeLinScheduleTable_LinScheduleTable"⟩] .unsupported <|
    .nil) <|
  .nil

/-- `writeLinPhysicalChannel`, `writer/arxml_writer.py:6423-6427` -/
def writeLinPhysicalChannel_LinPhysicalChannel : WB :=
  /- 6425 -/ .wrap .always k!"LIN-PHYSICAL-CHANNEL" (
    /- 6426 -/ writePhysicalChannel_PhysicalChannel.app <|
    /- 6427 -/ writeLinPhysicalChannelScheduleTables_LinPhysicalChannel.app <|
    .nil) <|
  .nil

/-- `writeLinScheduleTableTableEntries`, `writer/arxml_writer.py:6396-6404` -/
def writeLinScheduleTableTableEntries_LinScheduleTable : WB :=
  /- 6399 -/ .wrap (.any [(k!"tableEntries", [])]) k!"TABLE-ENTRYS" (
    /- 6402 -/ .each k!"tableEntries" [] .plain [⟨[(false, [k!"ApplicationEntry"])], [], k!"setApplicationEntry_APPLICATION_ENTRY_ApplicationEntry"⟩] .unsupported <|
    .nil) <|
  .nil

/-- `writeLinScheduleTable`, `writer/arxml_writer.py:6406-6411` -/
def writeLinScheduleTable_LinScheduleTable : WB :=
  /- 6407 -/ .wrap .always k!"LIN-SCHEDULE-TABLE" (
    /- 6408 -/ writeIdentifiable_ARPackage.app <|
    /- 6409 -/ .prim k!"RESUME-POSITION" .lit k!"resumePosition" <|
    /- 6410 -/ .prim k!"RUN-MODE" .lit k!"runMode" <|
    /- 6411 -/ writeLinScheduleTableTableEntries_LinScheduleTable.app <|
    .nil) <|
  .nil

/-- `writeLinTpConfigTpAddresses`, `writer/arxml_writer.py:6161-6169` -/
def writeLinTpConfigTpAddresses_LinTpConfig : WB :=
  /- 6164 -/ .wrap (.any [(k!"tpAddresses", [])]) k!"TP-ADDRESSS" (
    /- 6167 -/ .each k!"tpAddresses" [] .plain [⟨[(false, [k!"TpAddress"])], [], k!"writeTpAddress_TpAddress"⟩] .unsupported <|
    .nil) <|
  .nil

/-- `writeLinTpConfigTpConnections`, `writer/arxml_writer.py:6184-6192` -/
def writeLinTpConfigTpConnections_LinTpConfig : WB :=
  /- 6187 -/ .wrap (.any [(k!"tpConnections", [])]) k!"TP-CONNECTIONS" (
    /- 6190 -/ .each k!"tpConnections" [] .plain [⟨[(false, [k!"LinTpConnection"])], [], k!"writeLinTpConnection_LinTpConnection"⟩] .unsupported <|
    .nil) <|
  .nil

/-- `writeLinTpConfigTpNodes`, `writer/arxml_writer.py:6204-6212` -/
def writeLinTpConfigTpNodes_LinTpConfig : WB :=
  /- 6207 -/ .wrap (.any [(k!"tpNodes", [])]) k!"TP-NODES" (
    /- 6210 -/ .each k!"tpNodes" [] .plain [⟨[(false, [k!"LinTpNode"])], [], k!"writeLinTpNode_LinTpNode"⟩] .unsupported <|
    .nil) <|
  .nil

/-- `writeLinTpConfig`, `writer/arxml_writer.py:6214-6220` -/
def writeLinTpConfig_LinTpConfig : WB :=
  /- 6216 -/ .wrap .always k!"LIN-TP-CONFIG" (
    /- 6217 -/ writeTpConfig_TpConfig.app <|
    /- 6218 -/ writeLinTpConfigTpAddresses_LinTpConfig.app <|
    /- 6219 -/ writeLinTpConfigTpConnections_LinTpConfig.app <|
    /- 6220 -/ writeLinTpConfigTpNodes_LinTpConfig.app <|
    .nil) <|
  .nil

/-- `writeLinTpConnection`, `writer/arxml_writer.py:6171-6182` -/
def writeLinTpConnection_LinTpConnection : WB :=
  /- 6173 -/ .wrap .always k!"LIN-TP-CONNECTION" (
    /- 6174 -/ writeTpConnection_TpConnection.app <|
    /- 6175 -/ .prim k!"DATA-PDU-REF" .ref k!"dataPduRef" <|
    /- 6176 -/ .prim k!"FLOW-CONTROL-REF" .ref k!"flowControlRef" <|
    /- 6177 -/ .prim k!"LIN-TP-N-SDU-REF" .ref k!"linTpNSduRef" <|
    /- 6178 -/ writeTpConnectionReceiverRefs_CanTpConnection.app <|
    /- 6179 -/ .prim k!"TIMEOUT-AS" .lit k!"timeoutAs" <|
    /- 6180 -/ .prim k!"TIMEOUT-CR" .lit k!"timeoutCr" <|
    /- 6181 -/ .prim k!"TIMEOUT-CS" .lit k!"timeoutCs" <|
    /- 6182 -/ .prim k!"TRANSMITTER-REF" .ref k!"transmitterRef" <|
    .nil) <|
  .nil

/-- `writeLinTpNode`, `writer/arxml_writer.py:6194-6202` -/
def writeLinTpNode_LinTpNode : WB :=
  /- 6196 -/ .wrap .always k!"LIN-TP-NODE" (
    /- 6197 -/ writeIdentifiable_ARPackage.app <|
    /- 6198 -/ .prim k!"CONNECTOR-REF" .ref k!"connectorRef" <|
    /- 6200 -/ .prim k!"P-2-MAX" .lit k!"p2Max" <|
    /- 6201 -/ .prim k!"P-2-TIMING" .lit k!"p2Timing" <|
    /- 6202 -/ .prim k!"TP-ADDRESS-REF" .ref k!"tpAddressRef" <|
    .nil) <|
  /- 6199 -/ .prim k!"DROP-NOT-REQUESTED-NAD" .lit k!"dropNotRequestedNad" <|
  .nil

/-- `writeLinUnconditionalFrame`, `writer/arxml_writer.py:5761-5764` -/
def writeLinUnconditionalFrame_LinUnconditionalFrame : WB :=
  /- 5763 -/ .wrap .always k!"LIN-UNCONDITIONAL-FRAME" (
    /- 5764 -/ writeFrame_Frame.app <|
    .nil) <|
  .nil

/-- `writeLinker`, `writer/arxml_writer.py:4517-4523` -/
def writeLinker_Linker : WB :=
  /- 4518 -/ .wrap .always k!"LINKER" (
    /- 4519 -/ writeIdentifiable_ARPackage.app <|
    /- 4520 -/ .prim k!"NAME" .lit k!"name" <|
    /- 4521 -/ .prim k!"OPTIONS" .lit k!"options" <|
    /- 4522 -/ .prim k!"VENDOR" .lit k!"vendor" <|
    /- 4523 -/ .prim k!"VERSION" .lit k!"version" <|
    .nil) <|
  .nil

/-- `writeMacMulticastGroup`, `writer/arxml_writer.py:7449-7453` -/
def writeMacMulticastGroup_MacMulticastGroup : WB :=
  /- 7451 -/ .wrap .always k!"MAC-MULTICAST-GROUP" (
    /- 7452 -/ writeIdentifiable_ARPackage.app <|
    /- 7453 -/ .prim k!"MAC-MULTICAST-ADDRESS" .lit k!"macMulticastAddress" <|
    .nil) <|
  .nil

/-- `writeMcDataAccessDetails`, `writer/arxml_writer.py:4326-4336` -/
def writeMcDataAccessDetails_McDataAccessDetails : WB :=
  /- 4329 -/ .wrap (.any [(k!"rteEventIRefs", [])]) k!"RTE-EVENT-IREFS" (
    /- 4331 -/ .each k!"rteEventIRefs" [] .plain [⟨[], [], k!"writeMcDataAccessDetails_McDataAccessDetails_L4331"⟩] .skip <|
    .nil) <|
  /- 4334 -/ .wrap (.any [(k!"variableAccessIRefs", [])]) k!"VARIABLE-ACCESS-IREFS" (
    /- 4336 -/ .each k!"variableAccessIRefs" [] .plain [⟨[], [], k!"writeMcDataAccessDetails_McDataAccessDetails_L4336"⟩] .skip <|
    .nil) <|
  .nil

/-- `writeRteEventInEcuInstanceRef`, `writer/arxml_writer.py:4316-4319` -/
def writeRteEventInEcuInstanceRef_RteEventInEcuInstanceRef : WB :=
  /- 4317 -/ .prim k!"CONTEXT-ROOT-COMPOSITION-REF" .ref k!"contextRootCompositionRef" <|
  /- 4318 -/ .prim k!"CONTEXT-ATOMIC-COMPONENT-REF" .ref k!"contextAtomicComponentRef" <|
  /- 4319 -/ .prim k!"TARGET-RTE-EVENT-REF" .ref k!"targetRteEventRef" <|
  .nil

/-- `writeMcDataAccessDetails`, `writer/arxml_writer.py:4326-4336` (the block at line 4331) -/
def writeMcDataAccessDetails_McDataAccessDetails_L4331 : WB :=
  /- 4331 -/ .wrap .always k!"RTE-EVENT-IREF" (
    /- 4331 -/ writeRteEventInEcuInstanceRef_RteEventInEcuInstanceRef.app <|
    .nil) <|
  .nil

/-- `writeVariableAccessInEcuInstanceRef`, `writer/arxml_writer.py:4321-4324` -/
def writeVariableAccessInEcuInstanceRef_VariableAccessInEcuInstanceRef : WB :=
  /- 4322 -/ .prim k!"CONTEXT-ROOT-COMPOSITION-REF" .ref k!"contextRootCompositionRef" <|
  /- 4323 -/ .prim k!"CONTEXT-ATOMIC-COMPONENT-REF" .ref k!"contextAtomicComponentRef" <|
  /- 4324 -/ .prim k!"TARGET-VARIABLE-ACCESS-REF" .ref k!"targetVariableAccessRef" <|
  .nil

/-- `writeMcDataAccessDetails`, `writer/arxml_writer.py:4326-4336` (the block at line 4336) -/
def writeMcDataAccessDetails_McDataAccessDetails_L4336 : WB :=
  /- 4336 -/ .wrap .always k!"VARIABLE-ACCESS-IREF" (
    /- 4336 -/ writeVariableAccessInEcuInstanceRef_VariableAccessInEcuInstanceRef.app <|
    .nil) <|
  .nil

/-- `writeMcDataInstance`, `writer/arxml_writer.py:4338-4367` -/
def writeMcDataInstance_McDataInstance : WB :=
  /- 4339 -/ writeIdentifiable_ARPackage.app <|
  /- 4340 -/ .prim k!"ARRAY-SIZE" .numerical k!"arraySize" <|
  /- 4341 -/ .prim k!"DISPLAY-IDENTIFIER" .lit k!"displayIdentifier" <|
  /- 4342 -/ .prim k!"FLAT-MAP-ENTRY-REF" .ref k!"flatMapEntryRef" <|
  /- 4345 -/ .each k!"instanceInMemory" [] .plain [⟨[], [], k!"writeMcDataInstance_McDataInstance_L4345"⟩] .skip <|
  /- 4349 -/ .each k!"mcDataAccessDetails" [] .plain [⟨[], [], k!"writeMcDataInstance_McDataInstance_L4349"⟩] .skip <|
  /- 4352 -/ .wrap (.any [(k!"mcDataAssignments", [])]) k!"MC-DATA-ASSIGNMENTS" (
    /- 4354 -/ .each k!"mcDataAssignments" [] .plain [⟨[], [], k!"writeRptComponent_RptComponent_L4455"⟩] .skip <|
    .nil) <|
  /- 4356 -/ .each k!"resultingProperties" [] .plain [⟨[], [], k!"writeMcDataInstance_McDataInstance_L4356"⟩] .skip <|
  /- 4358 -/ .each k!"resultingRptSwPrototypingAccess" [] .plain [⟨[], [], k!"writeMcDataInstance_McDataInstance_L4358"⟩] .skip <|
  /- 4359 -/ .prim k!"ROLE" .lit k!"role" <|
  /- 4361 -/ .each k!"rptImplPolicy" [] .plain [⟨[], [], k!"writeMcDataInstance_McDataInstance_L4361"⟩] .skip <|
  /- 4364 -/ .wrap (.any [(k!"subElements", [])]) k!"SUB-ELEMENTS" (
    /- 4366 -/ .each k!"subElements" [] .plain [⟨[], [], k!"writeMcSupportData_McSupportData_L4285"⟩] .skip <|
    .nil) <|
  /- 4367 -/ .prim k!"SYMBOL" .lit k!"symbol" <|
  .nil

/-- `writeMcDataInstance`, `writer/arxml_writer.py:4338-4367` (the block at line 4345) -/
def writeMcDataInstance_McDataInstance_L4345 : WB :=
  /- 4345 -/ .wrap .always k!"INSTANCE-IN-MEMORY" (
    /- 4346 -/ .prim k!"CONTEXT-REF" .ref k!"contextRef" <|
    /- 4347 -/ .prim k!"TARGET-REF" .ref k!"targetRef" <|
    .nil) <|
  .nil

/-- `writeMcDataInstance`, `writer/arxml_writer.py:4338-4367` (the block at line 4349) -/
def writeMcDataInstance_McDataInstance_L4349 : WB :=
  /- 4349 -/ .wrap .always k!"MC-DATA-ACCESS-DETAILS" (
    /- 4349 -/ writeMcDataAccessDetails_McDataAccessDetails.app <|
    .nil) <|
  .nil

/-- `writeRoleBasedMcDataAssignment`, `writer/arxml_writer.py:4369-4380` -/
def writeRoleBasedMcDataAssignment_RoleBasedMcDataAssignment : WB :=
  /- 4372 -/ .wrap (.any [(k!"executionContextRefs", [])]) k!"EXECUTION-CONTEXT-REFS" (
    /- 4374 -/ .prim k!"EXECUTION-CONTEXT-REF" .ref k!"executionContextRefs" <|
    .nil) <|
  /- 4377 -/ .wrap (.any [(k!"mcDataInstanceRefs", [])]) k!"MC-DATA-INSTANCE-REFS" (
    /- 4379 -/ .prim k!"MC-DATA-INSTANCE-REF" .ref k!"mcDataInstanceRefs" <|
    .nil) <|
  /- 4380 -/ .prim k!"ROLE" .lit k!"role" <|
  .nil

/-- `writeRptComponent`, `writer/arxml_writer.py:4449-4462` (the block at line 4455); also `writeMcDataInstance`, `writeRptExecutableEntity`, `writeRptExecutableEntityEvent` -/
def writeRptComponent_RptComponent_L4455 : WB :=
  /- 4455 -/ .wrap .always k!"ROLE-BASED-MC-DATA-ASSIGNMENT" (
    /- 4455 -/ writeRoleBasedMcDataAssignment_RoleBasedMcDataAssignment.app <|
    .nil) <|
  .nil

/-- `writeMcDataInstance`, `writer/arxml_writer.py:4338-4367` (the block at line 4356) -/
def writeMcDataInstance_McDataInstance_L4356 : WB :=
  /- 4356 -/ .wrap .always k!"RESULTING-PROPERTIES" (
    .nil) <|
  .nil

/-- `writeRptSwPrototypingAccess`, `writer/arxml_writer.py:4382-4385` -/
def writeRptSwPrototypingAccess_RptSwPrototypingAccess : WB :=
  /- 4383 -/ .prim k!"RPT-HOOK-ACCESS" .lit k!"rptHookAccess" <|
  /- 4384 -/ .prim k!"RPT-READ-ACCESS" .lit k!"rptReadAccess" <|
  /- 4385 -/ .prim k!"RPT-WRITE-ACCESS" .lit k!"rptWriteAccess" <|
  .nil

/-- `writeMcDataInstance`, `writer/arxml_writer.py:4338-4367` (the block at line 4358) -/
def writeMcDataInstance_McDataInstance_L4358 : WB :=
  /- 4358 -/ .wrap .always k!"RESULTING-RPT-SW-PROTOTYPING-ACCESS" (
    /- 4358 -/ writeRptSwPrototypingAccess_RptSwPrototypingAccess.app <|
    .nil) <|
  .nil

/-- `writeRptImplPolicy`, `writer/arxml_writer.py:4387-4389` -/
def writeRptImplPolicy_RptImplPolicy : WB :=
  /- 4388 -/ .prim k!"RPT-ENABLER-IMPL-TYPE" .lit k!"rptEnablerImplType" <|
  /- 4389 -/ .prim k!"RPT-PREPARATION-LEVEL" .lit k!"rptPreparationLevel" <|
  .nil

/-- `writeMcDataInstance`, `writer/arxml_writer.py:4338-4367` (the block at line 4361); also `writeRptExecutableEntityEvent` -/
def writeMcDataInstance_McDataInstance_L4361 : WB :=
  /- 4361 -/ .wrap .always k!"RPT-IMPL-POLICY" (
    /- 4361 -/ writeRptImplPolicy_RptImplPolicy.app <|
    .nil) <|
  .nil

/-- `writeMcSupportData`, `writer/arxml_writer.py:4274-4298` (the block at line 4285); also `writeMcDataInstance` -/
def writeMcSupportData_McSupportData_L4285 : WB :=
  /- 4285 -/ .wrap .always k!"MC-DATA-INSTANCE" (
    /- 4285 -/ writeMcDataInstance_McDataInstance.app <|
    .nil) <|
  .nil

/-- `writeMcFunctionDataRefSet`, `writer/arxml_writer.py:9545-9557` -/
def writeMcFunctionDataRefSet_McFunctionDataRefSet : WB :=
  /- 9546 -/ .wrap .always k!"MC-FUNCTION-DATA-REF-SET-VARIANTS" (
    /- 9547 -/ .wrap .always k!"MC-FUNCTION-DATA-REF-SET-CONDITIONAL" (
      /- 9550 -/ .wrap (.any [(k!"flatMapEntryRefs", [])]) k!"FLAT-MAP-ENTRY-REFS" (
        /- 9552 -/ .prim k!"FLAT-MAP-ENTRY-REF" .ref k!"flatMapEntryRefs" <|
        .nil) <|
      /- 9555 -/ .wrap (.any [(k!"mcDataInstanceRefs", [])]) k!"MC-DATA-INSTANCE-REFS" (
        /- 9557 -/ .prim k!"MC-DATA-INSTANCE-REF" .ref k!"mcDataInstanceRefs" <|
        .nil) <|
      .nil) <|
    .nil) <|
  .nil

/-- `writeMcFunction`, `writer/arxml_writer.py:9520-9543` -/
def writeMcFunction_McFunction : WB :=
  /- 9522 -/ .wrap .always k!"MC-FUNCTION" (
    /- 9523 -/ writeIdentifiable_ARPackage.app <|
    /- 9525 -/ .each k!"defCalprmSet" [] .plain [⟨[], [], k!"writeMcFunction_McFunction_L9525"⟩] .skip <|
    /- 9528 -/ .each k!"refCalprmSet" [] .plain [⟨[], [], k!"writeMcFunction_McFunction_L9528"⟩] .skip <|
    /- 9531 -/ .each k!"inMeasurementSet" [] .plain [⟨[], [], k!"writeMcFunction_McFunction_L9531"⟩] .skip <|
    /- 9534 -/ .each k!"locMeasurementSet" [] .plain [⟨[], [], k!"writeMcFunction_McFunction_L9534"⟩] .skip <|
    /- 9537 -/ .each k!"outMeasurementSet" [] .plain [⟨[], [], k!"writeMcFunction_McFunction_L9537"⟩] .skip <|
    /- 9541 -/ .wrap (.any [(k!"subFunctionRefs", [])]) k!"SUB-FUNCTION-REFS" (
      /- 9543 -/ .prim k!"SUB-FUNCTION-REF" .ref k!"subFunctionRefs" <|
      .nil) <|
    .nil) <|
  .nil

/-- `writeMcFunction`, `writer/arxml_writer.py:9520-9543` (the block at line 9525) -/
def writeMcFunction_McFunction_L9525 : WB :=
  /- 9525 -/ .wrap .always k!"DEF-CALPRM-SET" (
    /- 9526 -/ writeMcFunctionDataRefSet_McFunctionDataRefSet.app <|
    .nil) <|
  .nil

/-- `writeMcFunction`, `writer/arxml_writer.py:9520-9543` (the block at line 9528) -/
def writeMcFunction_McFunction_L9528 : WB :=
  /- 9528 -/ .wrap .always k!"REF-CALPRM-SET" (
    /- 9529 -/ writeMcFunctionDataRefSet_McFunctionDataRefSet.app <|
    .nil) <|
  .nil

/-- `writeMcFunction`, `writer/arxml_writer.py:9520-9543` (the block at line 9531) -/
def writeMcFunction_McFunction_L9531 : WB :=
  /- 9531 -/ .wrap .always k!"IN-MEASUREMENT-SET" (
    /- 9532 -/ writeMcFunctionDataRefSet_McFunctionDataRefSet.app <|
    .nil) <|
  .nil

/-- `writeMcFunction`, `writer/arxml_writer.py:9520-9543` (the block at line 9534) -/
def writeMcFunction_McFunction_L9534 : WB :=
  /- 9534 -/ .wrap .always k!"LOC-MEASUREMENT-SET" (
    /- 9535 -/ writeMcFunctionDataRefSet_McFunctionDataRefSet.app <|
    .nil) <|
  .nil

/-- `writeMcFunction`, `writer/arxml_writer.py:9520-9543` (the block at line 9537) -/
def writeMcFunction_McFunction_L9537 : WB :=
  /- 9537 -/ .wrap .always k!"OUT-MEASUREMENT-SET" (
    /- 9538 -/ writeMcFunctionDataRefSet_McFunctionDataRefSet.app <|
    .nil) <|
  .nil

/-- `writeMcGroupDataRefSet`, `writer/arxml_writer.py:9580-9592` -/
def writeMcGroupDataRefSet_McGroupDataRefSet : WB :=
  /- 9581 -/ .wrap .always k!"MC-GROUP-DATA-REF-SET-VARIANTS" (
    /- 9582 -/ .wrap .always k!"MC-GROUP-DATA-REF-SET-CONDITIONAL" (
      /- 9585 -/ .wrap (.any [(k!"flatMapEntryRefs", [])]) k!"FLAT-MAP-ENTRY-REFS" (
        /- 9587 -/ .prim k!"FLAT-MAP-ENTRY-REF" .ref k!"flatMapEntryRefs" <|
        .nil) <|
      /- 9590 -/ .wrap (.any [(k!"mcDataInstanceRefs", [])]) k!"MC-DATA-INSTANCE-REFS" (
        /- 9592 -/ .prim k!"MC-DATA-INSTANCE-REF" .ref k!"mcDataInstanceRefs" <|
        .nil) <|
      .nil) <|
    .nil) <|
  .nil

/-- `writeMcGroup`, `writer/arxml_writer.py:9559-9578` -/
def writeMcGroup_McGroup : WB :=
  /- 9561 -/ .wrap .always k!"MC-GROUP" (
    /- 9562 -/ writeIdentifiable_ARPackage.app <|
    /- 9565 -/ .wrap (.any [(k!"subGroupRefs", [])]) k!"SUB-GROUP-REFS" (
      /- 9567 -/ .prim k!"SUB-GROUP-REF" .ref k!"subGroupRefs" <|
      .nil) <|
    /- 9569 -/ .each k!"refCalprmSet" [] .plain [⟨[], [], k!"writeMcGroup_McGroup_L9569"⟩] .skip <|
    /- 9572 -/ .each k!"refMeasurementSet" [] .plain [⟨[], [], k!"writeMcGroup_McGroup_L9572"⟩] .skip <|
    /- 9576 -/ .wrap (.any [(k!"mcFunctionRefs", [])]) k!"MC-FUNCTION-REFS" (
      /- 9578 -/ .prim k!"MC-FUNCTION-REF" .ref k!"mcFunctionRefs" <|
      .nil) <|
    .nil) <|
  .nil

/-- `writeMcGroup`, `writer/arxml_writer.py:9559-9578` (the block at line 9569) -/
def writeMcGroup_McGroup_L9569 : WB :=
  /- 9569 -/ .wrap .always k!"REF-CALPRM-SET" (
    /- 9570 -/ writeMcGroupDataRefSet_McGroupDataRefSet.app <|
    .nil) <|
  .nil

/-- `writeMcGroup`, `writer/arxml_writer.py:9559-9578` (the block at line 9572) -/
def writeMcGroup_McGroup_L9572 : WB :=
  /- 9572 -/ .wrap .always k!"REF-MEASUREMENT-SET" (
    /- 9573 -/ writeMcGroupDataRefSet_McGroupDataRefSet.app <|
    .nil) <|
  .nil

/-- `writeMcParameterElementGroup`, `writer/arxml_writer.py:4311-4314` -/
def writeMcParameterElementGroup_McParameterElementGroup : WB :=
  /- 4312 -/ .prim k!"SHORT-LABEL" .lit k!"shortLabel" <|
  /- 4313 -/ .prim k!"RAM-LOCATION-REF" .ref k!"ramLocationRef" <|
  /- 4314 -/ .prim k!"ROM-LOCATION-REF" .ref k!"romLocationRef" <|
  .nil

/-- `writeMcSupportData`, `writer/arxml_writer.py:4274-4298` -/
def writeMcSupportData_McSupportData : WB :=
  /- 4275 -/ .wrap .always k!"MC-SUPPORT" (
    /- 4278 -/ .wrap (.any [(k!"emulationSupports", [])]) k!"EMULATION-SUPPORTS" (
      /- 4280 -/ .each k!"emulationSupports" [] .plain [⟨[], [], k!"writeMcSupportData_McSupportData_L4280"⟩] .skip <|
      .nil) <|
    /- 4283 -/ .wrap (.any [(k!"mcParameterInstances", [])]) k!"MC-PARAMETER-INSTANCES" (
      /- 4285 -/ .each k!"mcParameterInstances" [] .plain [⟨[], [], k!"writeMcSupportData_McSupportData_L4285"⟩] .skip <|
      .nil) <|
    /- 4288 -/ .wrap (.any [(k!"mcVariableInstances", [])]) k!"MC-VARIABLE-INSTANCES" (
      /- 4290 -/ .each k!"mcVariableInstances" [] .plain [⟨[], [], k!"writeMcSupportData_McSupportData_L4285"⟩] .skip <|
      .nil) <|
    /- 4293 -/ .wrap (.any [(k!"measurableSystemConstantValuesRefs", [])]) k!"MEASURABLE-SYSTEM-CONSTANT-VALUES-REFS" (
      /- 4295 -/ .prim k!"MEASURABLE-SYSTEM-CONSTANT-VALUES-REF" .ref k!"measurableSystemConstantValuesRefs" <|
      .nil) <|
    /- 4298 -/ .each k!"rptSupportData" [] .plain [⟨[], [], k!"writeRptSupportData_RptSupportData"⟩] .skip <|
    .nil) <|
  .nil

/-- `writeMcSwEmulationMethodSupport`, `writer/arxml_writer.py:4300-4309` -/
def writeMcSwEmulationMethodSupport_McSwEmulationMethodSupport : WB :=
  /- 4301 -/ .prim k!"SHORT-LABEL" .lit k!"shortLabel" <|
  /- 4302 -/ .prim k!"CATEGORY" .lit k!"category" <|
  /- 4303 -/ .prim k!"BASE-REFERENCE-REF" .ref k!"baseReferenceRef" <|
  /- 4306 -/ .wrap (.any [(k!"elementGroups", [])]) k!"ELEMENT-GROUPS" (
    /- 4308 -/ .each k!"elementGroups" [] .plain [⟨[], [], k!"writeMcSwEmulationMethodSupport_McSwEmulationMethodSupport_L4308"⟩] .skip <|
    .nil) <|
  /- 4309 -/ .prim k!"REFERENCE-TABLE-REF" .ref k!"referenceTableRef" <|
  .nil

/-- `writeMcSupportData`, `writer/arxml_writer.py:4274-4298` (the block at line 4280) -/
def writeMcSupportData_McSupportData_L4280 : WB :=
  /- 4280 -/ .wrap .always k!"MC-SW-EMULATION-METHOD-SUPPORT" (
    /- 4280 -/ writeMcSwEmulationMethodSupport_McSwEmulationMethodSupport.app <|
    .nil) <|
  .nil

/-- `writeMcSwEmulationMethodSupport`, `writer/arxml_writer.py:4300-4309` (the block at line 4308) -/
def writeMcSwEmulationMethodSupport_McSwEmulationMethodSupport_L4308 : WB :=
  /- 4308 -/ .wrap .always k!"MC-PARAMETER-ELEMENT-GROUP" (
    /- 4308 -/ writeMcParameterElementGroup_McParameterElementGroup.app <|
    .nil) <|
  .nil

/-- `writeMeasuredExecutionTime`, `writer/arxml_writer.py:4108-4113` -/
def writeMeasuredExecutionTime_MeasuredExecutionTime : WB :=
  /- 4109 -/ .wrap .always k!"MEASURED-EXECUTION-TIME" (
    /- 4110 -/ writeExecutionTime_AnalyzedExecutionTime.app <|
    /- 4111 -/ .each k!"maximumExecutionTime" [] .plain [⟨[], [], k!"setMultidimensionalTime_MAXIMUM_EXECUTION_TIME_MultidimensionalTime"⟩] .skip <|
    /- 4112 -/ .each k!"minimumExecutionTime" [] .plain [⟨[], [], k!"setMultidimensionalTime_MINIMUM_EXECUTION_TIME_MultidimensionalTime"⟩] .skip <|
    /- 4113 -/ .each k!"nominalExecutionTime" [] .plain [⟨[], [], k!"setMultidimensionalTime_NOMINAL_EXECUTION_TIME_MultidimensionalTime"⟩] .skip <|
    .nil) <|
  .nil

/-- `writeMeasuredHeapUsage`, `writer/arxml_writer.py:4149-4155` -/
def writeMeasuredHeapUsage_MeasuredHeapUsage : WB :=
  /- 4150 -/ .wrap .always k!"MEASURED-HEAP-USAGE" (
    /- 4151 -/ writeHeapUsage_MeasuredHeapUsage.app <|
    /- 4152 -/ .prim k!"AVERAGE-MEMORY-CONSUMPTION" .numerical k!"averageMemoryConsumption" <|
    /- 4153 -/ .prim k!"MAXIMUM-MEMORY-CONSUMPTION" .numerical k!"maximumMemoryConsumption" <|
    /- 4154 -/ .prim k!"MINIMUM-MEMORY-CONSUMPTION" .numerical k!"minimumMemoryConsumption" <|
    /- 4155 -/ .prim k!"TEST-PATTERN" .lit k!"testPattern" <|
    .nil) <|
  .nil

/-- `writeMemorySectionExecutableEntityRefs`, `writer/arxml_writer.py:4039-4044` -/
def writeMemorySectionExecutableEntityRefs_MemorySection : WB :=
  /- 4042 -/ .wrap (.any [(k!"executableEntityRefs", [])]) k!"EXECUTABLE-ENTITY-REFS" (
    /- 4044 -/ .prim k!"EXECUTABLE-ENTITY-REF" .ref k!"executableEntityRefs" <|
    .nil) <|
  .nil

/-- `writeMemorySections`, `writer/arxml_writer.py:4046-4061` (the block at line 4051) -/
def writeMemorySections_ResourceConsumption_L4051 : WB :=
  /- 4051 -/ .wrap .always k!"MEMORY-SECTION" (
    /- 4052 -/ writeIdentifiable_ARPackage.app <|
    /- 4053 -/ .prim k!"ALIGNMENT" .lit k!"alignment" <|
    /- 4054 -/ writeMemorySectionExecutableEntityRefs_MemorySection.app <|
    /- 4055 -/ .prim k!"MEM-CLASS-SYMBOL" .lit k!"memClassSymbol" <|
    /- 4035 -/ .wrap (.any [(k!"options", [])]) k!"OPTIONS" (
      /- 4037 -/ .prim k!"OPTION" .lit k!"options" <|
      .nil) <|
    /- 4057 -/ .prim k!"PREFIX-REF" .ref k!"prefixRef" <|
    /- 4058 -/ .prim k!"SIZE" .numerical k!"size" <|
    /- 4059 -/ .prim k!"SW-ADDRMETHOD-REF" .ref k!"swAddrMethodRef" <|
    /- 4060 -/ .prim k!"SYMBOL" .lit k!"symbol" <|
    .nil) <|
  .nil

/-- `writeModeAccessPoint`, `writer/arxml_writer.py:3087-3091` -/
def writeModeAccessPoint_ModeAccessPoint : WB :=
  /- 3089 -/ .wrap .always k!"MODE-ACCESS-POINT" (
    /- 3090 -/ .attr k!"T" .raw k!"timestamp" <|
    /- 3090 -/ .attr k!"UUID" .raw k!"uuid" <|
    /- 3078 -/ .wrap (.any [(k!"modeGroupIRef", [])]) k!"MODE-GROUP-IREF" (
      /- 3080 -/ .each k!"modeGroupIRef" [] .plain [⟨[(false, [k!"PModeGroupInAtomicSwcInstanceRef"])], [], k!"writePModeGroupInAtomicSWCInstanceRef_PModeGroupInAtomicSwcInstanceRef"⟩,
        ⟨[(false, [k!"RModeGroupInAtomicSWCInstanceRef"])], [k!"PModeGroupInAtomicSwcInstanceRef"], k!"writeRModeGroupInAtomicSWCInstanceRef_RModeGroupInAtomicSWCInstanceRef"⟩] .unsupported <|
      .nil) <|
    .nil) <|
  .nil

/-- `writeModeDeclarationGroupModeDeclaration`, `writer/arxml_writer.py:5649-5654` -/
def writeModeDeclarationGroupModeDeclaration_ModeDeclarationGroup : WB :=
  /- 5652 -/ .wrap (.any [(k!"elements", [k!"ModeDeclaration"])]) k!"MODE-DECLARATIONS" (
    /- 5654 -/ .each k!"elements" [k!"ModeDeclaration"] .sorted [⟨[], [], k!"setModeDeclaration_ModeDeclaration"⟩] .skip <|
    .nil) <|
  .nil

/-- `writeModeDeclarationGroupModeTransition`, `writer/arxml_writer.py:5664-5672` -/
def writeModeDeclarationGroupModeTransition_ModeDeclarationGroup : WB :=
  /- 5667 -/ .wrap (.any [(k!"modeTransitions", [])]) k!"MODE-TRANSITIONS" (
    /- 5669 -/ .each k!"modeTransitions" [] .plain [⟨[], [], k!"writeModeDeclarationGroupModeTransition_ModeDeclarationGroup_L5669"⟩] .skip <|
    .nil) <|
  .nil

/-- `writeModeDeclarationGroupModeTransition`, `writer/arxml_writer.py:5664-5672` (the block at line 5669) -/
def writeModeDeclarationGroupModeTransition_ModeDeclarationGroup_L5669 : WB :=
  /- 5669 -/ .wrap .always k!"MODE-TRANSITION" (
    /- 5670 -/ writeIdentifiable_ARPackage.app <|
    /- 5671 -/ .prim k!"ENTERED-MODE-REF" .ref k!"enteredModeRef" <|
    /- 5672 -/ .prim k!"EXITED-MODE-REF" .ref k!"exitedModeRef" <|
    .nil) <|
  .nil

/-- `writeModeDeclarationGroupPrototype`, `writer/arxml_writer.py:4693-4697` -/
def writeModeDeclarationGroupPrototype_ModeDeclarationGroupPrototype : WB :=
  /- 4694 -/ .wrap .always k!"MODE-DECLARATION-GROUP-PROTOTYPE" (
    /- 4695 -/ writeIdentifiable_ARPackage.app <|
    /- 4696 -/ .prim k!"TYPE-TREF" .ref k!"typeTRef" <|
    /- 4697 -/ .prim k!"SW-CALIBRATION-ACCESS" .lit k!"swCalibrationAccess" <|
    .nil) <|
  .nil

/-- `writeModeDeclarationGroup`, `writer/arxml_writer.py:5674-5683` -/
def writeModeDeclarationGroup_ModeDeclarationGroup : WB :=
  /- 5676 -/ .wrap .always k!"MODE-DECLARATION-GROUP" (
    /- 5677 -/ writeIdentifiable_ARPackage.app <|
    /- 5678 -/ .prim k!"INITIAL-MODE-REF" .ref k!"initialModeRef" <|
    /- 5679 -/ writeModeDeclarationGroupModeDeclaration_ModeDeclarationGroup.app <|
    /- 5680 -/ .each k!"modeManagerErrorBehavior" [] .plain [⟨[], [], k!"writeModeErrorBehavior_MODE_MANAGER_ERROR_BEHAVIOR_ModeErrorBehavior"⟩] .skip <|
    /- 5681 -/ writeModeDeclarationGroupModeTransition_ModeDeclarationGroup.app <|
    /- 5682 -/ .each k!"modeUserErrorBehavior" [] .plain [⟨[], [], k!"writeModeErrorBehavior_MODE_USER_ERROR_BEHAVIOR_ModeErrorBehavior"⟩] .skip <|
    /- 5683 -/ .prim k!"ON-TRANSITION-VALUE" .numerical k!"onTransitionValue" <|
    .nil) <|
  .nil

/-- `writeModeDeclarationMappingFirstModeRefs`, `writer/arxml_writer.py:6957-6962` -/
def writeModeDeclarationMappingFirstModeRefs_ModeDeclarationMapping : WB :=
  /- 6960 -/ .wrap (.any [(k!"firstModeRefs", [])]) k!"FIRST-MODE-REFS" (
    /- 6962 -/ .prim k!"FIRST-MODE-REF" .ref k!"firstModeRefs" <|
    .nil) <|
  .nil

/-- `writeModeDeclarationMappingSetModeDeclarationMappings`, `writer/arxml_writer.py:6972-6980` -/
def writeModeDeclarationMappingSetModeDeclarationMappings_ModeDeclarationMappingSet : WB :=
  /- 6975 -/ .wrap (.any [(k!"modeDeclarationMappings", [])]) k!"MODE-DECLARATION-MAPPINGS" (
    /- 6978 -/ .each k!"modeDeclarationMappings" [] .plain [⟨[(false, [k!"ModeDeclarationMapping"])], [], k!"writeModeDeclarationMapping_ModeDeclarationMapping"⟩] .unsupported <|
    .nil) <|
  .nil

/-- `writeModeDeclarationMappingSet`, `writer/arxml_writer.py:6982-6987` -/
def writeModeDeclarationMappingSet_ModeDeclarationMappingSet : WB :=
  /- 6985 -/ .wrap .always k!"MODE-DECLARATION-MAPPING-SET" (
    /- 6986 -/ writeARElement_System.app <|
    .nil) <|
  /- 6987 -/ writeModeDeclarationMappingSetModeDeclarationMappings_ModeDeclarationMappingSet.app <|
  .nil

/-- `writeModeDeclarationMapping`, `writer/arxml_writer.py:6964-6970` -/
def writeModeDeclarationMapping_ModeDeclarationMapping : WB :=
  /- 6967 -/ .wrap .always k!"MODE-DECLARATION-MAPPING" (
    /- 6968 -/ writeIdentifiable_ARPackage.app <|
    /- 6969 -/ writeModeDeclarationMappingFirstModeRefs_ModeDeclarationMapping.app <|
    /- 6970 -/ .prim k!"SECOND-MODE-REF" .ref k!"secondModeRef" <|
    .nil) <|
  .nil

/-- `writeModeErrorBehavior`, `writer/arxml_writer.py:5656-5662` -/
def writeModeErrorBehavior_MODE_MANAGER_ERROR_BEHAVIOR_ModeErrorBehavior : WB :=
  /- 5659 -/ .wrap .always k!"MODE-MANAGER-ERROR-BEHAVIOR" (
    /- 5660 -/ .prim k!"DEFAULT-MODE-REF" .ref k!"defaultModeRef" <|
    /- 5661 -/ .prim k!"ERROR-REACTION-POLICY" .lit k!"errorReactionPolicy" <|
    .nil) <|
  .nil

/-- `writeModeErrorBehavior`, `writer/arxml_writer.py:5656-5662` -/
def writeModeErrorBehavior_MODE_USER_ERROR_BEHAVIOR_ModeErrorBehavior : WB :=
  /- 5659 -/ .wrap .always k!"MODE-USER-ERROR-BEHAVIOR" (
    /- 5660 -/ .prim k!"DEFAULT-MODE-REF" .ref k!"defaultModeRef" <|
    /- 5661 -/ .prim k!"ERROR-REACTION-POLICY" .lit k!"errorReactionPolicy" <|
    .nil) <|
  .nil

/-- `writeModeInterfaceMappingModeMapping`, `writer/arxml_writer.py:8147-8153` -/
def writeModeInterfaceMappingModeMapping_ModeInterfaceMapping : WB :=
  /- 8150 -/ .each k!"modeMapping" [] .plain [⟨[], [], k!"writeModeInterfaceMappingModeMapping_ModeInterfaceMapping_L8150"⟩] .skip <|
  .nil

/-- `writeModeInterfaceMappingModeMapping`, `writer/arxml_writer.py:8147-8153` (the block at line 8150) -/
def writeModeInterfaceMappingModeMapping_ModeInterfaceMapping_L8150 : WB :=
  /- 8150 -/ .wrap .always k!"MODE-MAPPING" (
    /- 8151 -/ .prim k!"FIRST-MODE-GROUP-REF" .ref k!"firstModeGroupRef" <|
    /- 8152 -/ .prim k!"MODE-DECLARATION-MAPPING-SET-REF" .ref k!"modeDeclarationMappingSetRef" <|
    /- 8153 -/ .prim k!"SECOND-MODE-GROUP-REF" .ref k!"secondModeGroupRef" <|
    .nil) <|
  .nil

/-- `writeModeInterfaceMapping`, `writer/arxml_writer.py:8155-8160` -/
def writeModeInterfaceMapping_ModeInterfaceMapping : WB :=
  /- 8158 -/ .wrap .always k!"MODE-INTERFACE-MAPPING" (
    /- 8159 -/ writeIdentifiable_ARPackage.app <|
    /- 8160 -/ writeModeInterfaceMappingModeMapping_ModeInterfaceMapping.app <|
    .nil) <|
  .nil

/-- `writeModePortAnnotation`, `writer/arxml_writer.py:1449-1451` -/
def writeModePortAnnotation_ModePortAnnotation : WB :=
  /- 1450 -/ .wrap .always k!"MODE-PORT-ANNOTATION" (
    /- 1451 -/ .prim k!"MODE-GROUP-REF" .ref k!"modeGroupRef" <|
    .nil) <|
  .nil

/-- `writeModeRequestTypeMaps`, `writer/arxml_writer.py:5627-5635` (the block at line 5632) -/
def writeModeRequestTypeMaps_DataTypeMappingSet_L5632 : WB :=
  /- 5632 -/ .wrap .always k!"MODE-REQUEST-TYPE-MAP" (
    /- 5633 -/ .attr k!"T" .raw k!"timestamp" <|
    /- 5633 -/ .attr k!"UUID" .raw k!"uuid" <|
    /- 5634 -/ .prim k!"IMPLEMENTATION-DATA-TYPE-REF" .ref k!"implementationDataTypeRef" <|
    /- 5635 -/ .prim k!"MODE-GROUP-REF" .ref k!"modeGroupRef" <|
    .nil) <|
  .nil

/-- `writeModeSwitchEventTriggeredActivity`, `writer/arxml_writer.py:2814-2817` -/
def writeModeSwitchEventTriggeredActivity_ModeSwitchEventTriggeredActivity : WB :=
  /- 2815 -/ .wrap .always k!"MODE-SWITCH-EVENT-TRIGGERED-ACTIVITY" (
    /- 2816 -/ .prim k!"ROLE" .lit k!"role" <|
    /- 2817 -/ .prim k!"SWC-MODE-SWITCH-EVENT-REF" .ref k!"swcModeSwitchEventRef" <|
    .nil) <|
  .nil

/-- `writeModeSwitchInterfaceModeGroup`, `writer/arxml_writer.py:5685-5691` -/
def writeModeSwitchInterfaceModeGroup_ModeSwitchInterface : WB :=
  /- 5688 -/ .each k!"modeGroup" [] .plain [⟨[], [], k!"writeModeSwitchInterfaceModeGroup_ModeSwitchInterface_L5688"⟩] .skip <|
  .nil

/-- `writeModeSwitchInterfaceModeGroup`, `writer/arxml_writer.py:5685-5691` (the block at line 5688) -/
def writeModeSwitchInterfaceModeGroup_ModeSwitchInterface_L5688 : WB :=
  /- 5688 -/ .wrap .always k!"MODE-GROUP" (
    /- 5689 -/ writeIdentifiable_ARPackage.app <|
    /- 5690 -/ .prim k!"TYPE-TREF" .ref k!"typeTRef" <|
    /- 5691 -/ .prim k!"SW-CALIBRATION-ACCESS" .lit k!"swCalibrationAccess" <|
    .nil) <|
  .nil

/-- `writeModeSwitchInterface`, `writer/arxml_writer.py:5693-5697` -/
def writeModeSwitchInterface_ModeSwitchInterface : WB :=
  /- 5695 -/ .wrap .always k!"MODE-SWITCH-INTERFACE" (
    /- 5696 -/ writePortInterface_PortInterface.app <|
    /- 5697 -/ writeModeSwitchInterfaceModeGroup_ModeSwitchInterface.app <|
    .nil) <|
  .nil

/-- `writeModeSwitchPointModeGroupIRef`, `writer/arxml_writer.py:3117-3122` -/
def writeModeSwitchPointModeGroupIRef_ModeSwitchPoint : WB :=
  /- 3121 -/ .when (.none [(k!"modeGroupIRef", [])]) (
    /- 3121 -/ .fail .attributeError true <|
    .nil) <|
  /- 3119 -/ .each k!"modeGroupIRef" [] .plain [⟨[], [], k!"writeModeSwitchPointModeGroupIRef_ModeSwitchPoint_L3119"⟩] .skip <|
  .nil

/-- `writeModeSwitchPointModeGroupIRef`, `writer/arxml_writer.py:3117-3122` (the block at line 3119) -/
def writeModeSwitchPointModeGroupIRef_ModeSwitchPoint_L3119 : WB :=
  /- 3119 -/ .wrap .always k!"MODE-GROUP-IREF" (
    /- 3121 -/ .prim k!"CONTEXT-P-PORT-REF" .ref k!"contextPPortRef" <|
    /- 3122 -/ .prim k!"TARGET-MODE-GROUP-REF" .ref k!"targetModeGroupRef" <|
    .nil) <|
  .nil

/-- `writeModeSwitchPoint`, `writer/arxml_writer.py:3124-3128` -/
def writeModeSwitchPoint_ModeSwitchPoint : WB :=
  /- 3126 -/ .wrap .always k!"MODE-SWITCH-POINT" (
    /- 3127 -/ writeIdentifiable_ARPackage.app <|
    /- 3128 -/ writeModeSwitchPointModeGroupIRef_ModeSwitchPoint.app <|
    .nil) <|
  .nil

/-- `writeModeSwitchSenderComSpec`, `writer/arxml_writer.py:1094-1099` -/
def writeModeSwitchSenderComSpec_ModeSwitchSenderComSpec : WB :=
  /- 1095 -/ .wrap .always k!"MODE-SWITCH-SENDER-COM-SPEC" (
    /- 1096 -/ .attr k!"T" .raw k!"timestamp" <|
    /- 1096 -/ .attr k!"UUID" .raw k!"uuid" <|
    /- 1097 -/ .prim k!"MODE-GROUP-REF" .ref k!"modeGroupRef" <|
    /- 1098 -/ .each k!"modeSwitchedAck" [] .plain [⟨[], [], k!"setModeSwitchedAckRequest_MODE_SWITCHED_ACK_ModeSwitchedAckRequest"⟩] .skip <|
    /- 1099 -/ .prim k!"QUEUE-LENGTH" .numerical k!"queueLength" <|
    .nil) <|
  .nil

/-- `writeModeSwitchedAckEvent`, `writer/arxml_writer.py:2620-2624` -/
def writeModeSwitchedAckEvent_ModeSwitchedAckEvent : WB :=
  /- 2622 -/ .wrap .always k!"MODE-SWITCHED-ACK-EVENT" (
    /- 2623 -/ setRTEEvent_RTEEvent.app <|
    /- 2624 -/ .prim k!"EVENT-SOURCE-REF" .ref k!"eventSourceRef" <|
    .nil) <|
  .nil

/-- `writeModification`, `writer/arxml_writer.py:949-953` -/
def writeModification_Modification : WB :=
  /- 951 -/ .wrap .always k!"MODIFICATION" (
    /- 952 -/ .each k!"change" [] .plain [⟨[], [], k!"setMultiLanguageOverviewParagraph_CHANGE_MultiLanguageOverviewParagraph"⟩] .skip <|
    /- 953 -/ .each k!"reason" [] .plain [⟨[], [], k!"setMultiLanguageOverviewParagraph_REASON_MultiLanguageOverviewParagraph"⟩] .skip <|
    .nil) <|
  .nil

/-- `writeMsrQueryChapter`, `writer/arxml_writer.py:1640-1644` -/
def writeMsrQueryChapter_MsrQueryChapter : WB :=
  /- 1641 -/ .wrap .always k!"MSR-QUERY-CHAPTER" (
    /- 1642 -/ .attr k!"T" .raw k!"timestamp" <|
    /- 1642 -/ .attr k!"UUID" .raw k!"uuid" <|
    /- 1644 -/ .each k!"msrQueryProps" [] .plain [⟨[], [], k!"setMsrQueryProps_MsrQueryProps"⟩] .skip <|
    .nil) <|
  .nil

/-- `writeMsrQueryP1`, `writer/arxml_writer.py:1618-1620` -/
def writeMsrQueryP1_MsrQueryP1 : WB :=
  /- 1619 -/ .wrap .always k!"MSR-QUERY-P1" (
    /- 1620 -/ .attr k!"T" .raw k!"timestamp" <|
    /- 1620 -/ .attr k!"UUID" .raw k!"uuid" <|
    .nil) <|
  .nil

/-- `writeMsrQueryTopic1`, `writer/arxml_writer.py:1634-1638` -/
def writeMsrQueryTopic1_MsrQueryTopic1 : WB :=
  /- 1635 -/ .wrap .always k!"MSR-QUERY-TOPIC-1" (
    /- 1636 -/ .attr k!"T" .raw k!"timestamp" <|
    /- 1636 -/ .attr k!"UUID" .raw k!"uuid" <|
    /- 1638 -/ .each k!"msrQueryProps" [] .plain [⟨[], [], k!"setMsrQueryProps_MsrQueryProps"⟩] .skip <|
    .nil) <|
  .nil

/-- `writeMultiplexedIPduDynamicParts`, `writer/arxml_writer.py:8765-8772` -/
def writeMultiplexedIPduDynamicParts_MultiplexedIPdu : WB :=
  /- 8768 -/ .wrap (.any [(k!"dynamicPart", [])]) k!"DYNAMIC-PARTS" (
    /- 8770 -/ .each k!"dynamicPart" [] .plain [⟨[(false, [k!"DynamicPart"])], [], k!"writeDynamicPart_DynamicPart"⟩] .unsupported <|
    .nil) <|
  .nil

/-- `writeMultiplexedIPduStaticParts`, `writer/arxml_writer.py:8779-8786` -/
def writeMultiplexedIPduStaticParts_MultiplexedIPdu : WB :=
  /- 8782 -/ .wrap (.any [(k!"staticPart", [])]) k!"STATIC-PARTS" (
    /- 8784 -/ .each k!"staticPart" [] .plain [⟨[(false, [k!"StaticPart"])], [], k!"writeStaticPart_StaticPart"⟩] .unsupported <|
    .nil) <|
  .nil

/-- `writeMultiplexedIPdu`, `writer/arxml_writer.py:8788-8798` -/
def writeMultiplexedIPdu_MultiplexedIPdu : WB :=
  /- 8790 -/ .wrap .always k!"MULTIPLEXED-I-PDU" (
    /- 8791 -/ writeIPdu_IPdu.app <|
    /- 8792 -/ writeMultiplexedIPduDynamicParts_MultiplexedIPdu.app <|
    /- 8793 -/ .prim k!"SELECTOR-FIELD-BYTE-ORDER" .lit k!"selectorFieldByteOrder" <|
    /- 8794 -/ .prim k!"SELECTOR-FIELD-LENGTH" .numerical k!"selectorFieldLength" <|
    /- 8795 -/ .prim k!"SELECTOR-FIELD-START-POSITION" .numerical k!"selectorFieldStartPosition" <|
    /- 8796 -/ writeMultiplexedIPduStaticParts_MultiplexedIPdu.app <|
    /- 8797 -/ .prim k!"TRIGGER-MODE" .lit k!"triggerMode" <|
    /- 8798 -/ .prim k!"UNUSED-BIT-PATTERN" .numerical k!"unusedBitPattern" <|
    .nil) <|
  .nil

/-- `writeNPdu`, `writer/arxml_writer.py:5989-5992` -/
def writeNPdu_NPdu : WB :=
  /- 5991 -/ .wrap .always k!"N-PDU" (
    /- 5992 -/ writePdu_Pdu.app <|
    .nil) <|
  .nil

/-- `writeNetworkEndPoint`, `writer/arxml_writer.py:6459-6465` -/
def writeNetworkEndPoint_NetworkEndpoint : WB :=
  /- 6461 -/ .wrap .always k!"NETWORK-ENDPOINT" (
    /- 6462 -/ writeIdentifiable_ARPackage.app <|
    /- 6463 -/ .each k!"infrastructureServices" [] .plain [⟨[], [], k!"setInfrastructureServices_INFRASTRUCTURE_SERVICES_InfrastructureServices"⟩] .skip <|
    /- 6442 -/ .wrap (.any [(k!"networkEndpointAddresses", [])]) k!"NETWORK-ENDPOINT-ADDRESSES" (
      /- 6445 -/ .each k!"networkEndpointAddresses" [] .plain [⟨[(false, [k!"Ipv6Configuration"])], [], k!"setIpv6Configuration_Ipv6Configuration"⟩] .unsupported <|
      .nil) <|
    /- 6465 -/ .prim k!"PRIORITY" .numerical k!"priority" <|
    .nil) <|
  .nil

/-- `writeNmConfigNmClusterCouplings`, `writer/arxml_writer.py:5842-5853` -/
def writeNmConfigNmClusterCouplings_NmConfig : WB :=
  /- 5846 -/ .wrap (.any [(k!"nmClusterCouplings", [])]) k!"NM-CLUSTER-COUPLINGS" (
    /- 5849 -/ .each k!"nmClusterCouplings" [] .plain [⟨[(false, [k!"CanNmClusterCoupling"])], [], k!"writeCanNmClusterCoupling_CanNmClusterCoupling"⟩,
      ⟨[(false, [k!"UdpNmClusterCoupling"])], [k!"CanNmClusterCoupling"], k!"writeUdpNmClusterCoupling_UdpNmClusterCoupling"⟩] .unsupported <|
    .nil) <|
  .nil

/-- `writeNmConfigNmClusters`, `writer/arxml_writer.py:5901-5911` -/
def writeNmConfigNmClusters_NmConfig : WB :=
  /- 5904 -/ .wrap (.any [(k!"elements", [k!"NmCluster"])]) k!"NM-CLUSTERS" (
    /- 5907 -/ .each k!"elements" [k!"NmCluster"] .sorted [⟨[(false, [k!"CanNmCluster"])], [], k!"writeCanNmCluster_CanNmCluster"⟩,
      ⟨[(false, [k!"UdpNmCluster"])], [k!"CanNmCluster"], k!"writeUdpNmCluster_UdpNmCluster"⟩] .unsupported <|
    .nil) <|
  .nil

/-- `writeNmConfigNmIfEcus`, `writer/arxml_writer.py:5943-5951` -/
def writeNmConfigNmIfEcus_NmConfig : WB :=
  /- 5946 -/ .wrap (.any [(k!"nmIfEcus", [])]) k!"NM-IF-ECUS" (
    /- 5949 -/ .each k!"nmIfEcus" [] .plain [⟨[(false, [k!"NmEcu"])], [], k!"writeNmEcu_NmEcu"⟩] .unsupported <|
    .nil) <|
  .nil

/-- `writeNmConfig`, `writer/arxml_writer.py:5953-5959` -/
def writeNmConfig_NmConfig : WB :=
  /- 5955 -/ .wrap .always k!"NM-CONFIG" (
    /- 5956 -/ writeIdentifiable_ARPackage.app <|
    /- 5957 -/ writeNmConfigNmClusters_NmConfig.app <|
    /- 5958 -/ writeNmConfigNmClusterCouplings_NmConfig.app <|
    /- 5959 -/ writeNmConfigNmIfEcus_NmConfig.app <|
    .nil) <|
  .nil

/-- `writeNmEcu`, `writer/arxml_writer.py:5928-5941` -/
def writeNmEcu_NmEcu : WB :=
  /- 5929 -/ .wrap .always k!"NM-ECU" (
    /- 5930 -/ writeIdentifiable_ARPackage.app <|
    /- 5931 -/ writeBusDependentNmEcus_NmEcu.app <|
    /- 5932 -/ .prim k!"ECU-INSTANCE-REF" .ref k!"ecuInstanceRef" <|
    /- 5933 -/ .prim k!"NM-BUS-SYNCHRONIZATION-ENABLED" .lit k!"nmBusSynchronizationEnabled" <|
    /- 5934 -/ .prim k!"NM-COM-CONTROL-ENABLED" .lit k!"nmComControlEnabled" <|
    /- 5935 -/ .prim k!"NM-NODE-DETECTION-ENABLED" .lit k!"nmNodeDetectionEnabled" <|
    /- 5936 -/ .prim k!"NM-NODE-ID-ENABLED" .lit k!"nmNodeIdEnabled" <|
    /- 5937 -/ .prim k!"NM-PDU-RX-INDICATION-ENABLED" .lit k!"nmPduRxIndicationEnabled" <|
    /- 5938 -/ .prim k!"NM-REMOTE-SLEEP-IND-ENABLED" .lit k!"nmRemoteSleepIndEnabled" <|
    /- 5939 -/ .prim k!"NM-REPEAT-MSG-IND-ENABLED" .lit k!"nmRepeatMsgIndEnabled" <|
    /- 5940 -/ .prim k!"NM-STATE-CHANGE-IND-ENABLED" .lit k!"nmStateChangeIndEnabled" <|
    /- 5941 -/ .prim k!"NM-USER-DATA-ENABLED" .lit k!"nmUserDataEnabled" <|
    .nil) <|
  .nil

/-- `writeNmPduISignalToIPduMappings`, `writer/arxml_writer.py:5972-5980` -/
def writeNmPduISignalToIPduMappings_NmPdu : WB :=
  /- 5975 -/ .wrap (.any [(k!"iSignalToIPduMappings", [])]) k!"I-SIGNAL-TO-I-PDU-MAPPINGS" (
    /- 5978 -/ .each k!"iSignalToIPduMappings" [] .plain [⟨[(false, [k!"ISignalToIPduMapping"])], [], k!"writeISignalToPduMappings_ISignalIPdu_L9078"⟩] .unsupported <|
    .nil) <|
  .nil

/-- `writeNmPdu`, `writer/arxml_writer.py:5982-5987` -/
def writeNmPdu_NmPdu : WB :=
  /- 5984 -/ .wrap .always k!"NM-PDU" (
    /- 5985 -/ writePdu_Pdu.app <|
    /- 5986 -/ writeNmPduISignalToIPduMappings_NmPdu.app <|
    /- 5987 -/ .prim k!"UNUSED-BIT-PATTERN" .numerical k!"unusedBitPattern" <|
    .nil) <|
  .nil

/-- `writeReceiverComSpec`, `writer/arxml_writer.py:1139-1165` -/
def writeReceiverComSpec_ReceiverComSpec : WB :=
  /- 1142 -/ .wrap (.any [(k!"compositeNetworkRepresentations", [])]) k!"COMPOSITE-NETWORK-REPRESENTATIONS" (
    /- 1144 -/ .each k!"compositeNetworkRepresentations" [] .plain [⟨[], [], k!"writeCompositeNetworkRepresentation_CompositeNetworkRepresentation"⟩] .skip <|
    .nil) <|
  /- 1145 -/ .prim k!"DATA-ELEMENT-REF" .ref k!"dataElementRef" <|
  /- 1146 -/ .each k!"networkRepresentation" [] .plain [⟨[], [], k!"setSwDataDefProps_NETWORK_REPRESENTATION_SwDataDefProps"⟩] .skip <|
  /- 1147 -/ .prim k!"HANDLE-OUT-OF-RANGE" .lit k!"handleOutOfRange" <|
  /- 1148 -/ .prim k!"HANDLE-OUT-OF-RANGE-STATUS" .lit k!"handleOutOfRangeStatus" <|
  /- 1149 -/ .prim k!"MAX-DELTA-COUNTER-INIT" .numerical k!"maxDeltaCounterInit" <|
  /- 1150 -/ .prim k!"MAX-NO-NEW-OR-REPEATED-DATA" .numerical k!"maxNoNewOrRepeatedData" <|
  /- 1151 -/ .prim k!"USES-END-TO-END-PROTECTION" .lit k!"usesEndToEndProtection" <|
  /- 1152 -/ .each k!"receptionProps" [] .plain [⟨[], [], k!"writeReceptionComSpecProps_RECEPTION_PROPS_ReceptionComSpecProps"⟩] .skip <|
  /- 1153 -/ .each k!"replaceWith" [] .plain [⟨[], [], k!"writeReceiverReplaceWith_REPLACE_WITH_VariableAccess"⟩] .skip <|
  /- 1154 -/ .prim k!"SYNC-COUNTER-INIT" .numerical k!"syncCounterInit" <|
  /- 1157 -/ .wrap (.any [(k!"transformationComSpecProps", [])]) k!"TRANSFORMATION-COM-SPEC-PROPSS" (
    /- 1160 -/ .each k!"transformationComSpecProps" [] .plain [⟨[(false, [k!"EndToEndTransformationComSpecProps"])], [], k!"writeReceiverComSpec_ReceiverComSpec_L1160"⟩,
      ⟨[(false, [k!"UserDefinedTransformationComSpecProps"])], [k!"EndToEndTransformationComSpecProps"], k!"writeUserDefinedTransformationComSpecProps_UserDefinedTransformationComSpecProps"⟩] .unsupported <|
    .nil) <|
  .nil

/-- `writeNonqueuedReceiverComSpec`, `writer/arxml_writer.py:1271-1283` -/
def writeNonqueuedReceiverComSpec_NonqueuedReceiverComSpec : WB :=
  /- 1272 -/ .wrap .always k!"NONQUEUED-RECEIVER-COM-SPEC" (
    /- 1273 -/ .attr k!"T" .raw k!"timestamp" <|
    /- 1273 -/ .attr k!"UUID" .raw k!"uuid" <|
    /- 1274 -/ writeReceiverComSpec_ReceiverComSpec.app <|
    /- 1275 -/ .prim k!"ALIVE-TIMEOUT" .lit k!"aliveTimeout" <|
    /- 1276 -/ .prim k!"ENABLE-UPDATE" .lit k!"enableUpdate" <|
    /- 1277 -/ .each k!"filter" [] .plain [⟨[], [], k!"setDataFilter_FILTER_DataFilter"⟩] .skip <|
    /- 1278 -/ .prim k!"HANDLE-DATA-STATUS" .lit k!"handleDataStatus" <|
    /- 1279 -/ .prim k!"HANDLE-NEVER-RECEIVED" .lit k!"handleNeverReceived" <|
    /- 1280 -/ .prim k!"HANDLE-TIMEOUT-TYPE" .lit k!"handleTimeoutType" <|
    /- 1251 -/ .wrap (.any [(k!"initValue", [])]) k!"INIT-VALUE" (
      /- 1253 -/ .each k!"initValue" [] .plain [⟨[(false, [k!"ApplicationValueSpecification"])], [], k!"writeApplicationValueSpecification_ApplicationValueSpecification"⟩,
        ⟨[(false, [k!"ApplicationRuleBasedValueSpecification"])], [k!"ApplicationValueSpecification"], k!"writeApplicationRuleBasedValueSpecification_ApplicationRuleBasedValueSpecification"⟩,
        ⟨[(false, [k!"CompositeRuleBasedValueSpecification"])], [k!"ApplicationValueSpecification", k!"ApplicationRuleBasedValueSpecification"], k!"writeCompositeRuleBasedValueSpecification_CompositeRuleBasedValueSpecification"⟩,
        ⟨[(false, [k!"TextValueSpecification"])], [k!"ApplicationValueSpecification", k!"ApplicationRuleBasedValueSpecification", k!"CompositeRuleBasedValueSpecification"], k!"writeTextValueSpecification_TextValueSpecification"⟩,
        ⟨[(false, [k!"ConstantReference"])], [k!"ApplicationValueSpecification", k!"ApplicationRuleBasedValueSpecification", k!"CompositeRuleBasedValueSpecification", k!"TextValueSpecification"], k!"setConstantReference_ConstantReference"⟩,
        ⟨[(false, [k!"NumericalValueSpecification"])], [k!"ApplicationValueSpecification", k!"ApplicationRuleBasedValueSpecification", k!"CompositeRuleBasedValueSpecification", k!"TextValueSpecification", k!"ConstantReference"], k!"writeNumericalValueSpecification_NumericalValueSpecification"⟩,
        ⟨[(false, [k!"ArrayValueSpecification"])], [k!"ApplicationValueSpecification", k!"ApplicationRuleBasedValueSpecification", k!"CompositeRuleBasedValueSpecification", k!"TextValueSpecification", k!"ConstantReference", k!"NumericalValueSpecification"], k!"writeArrayValueSpecification_ArrayValueSpecification"⟩,
        ⟨[(false, [k!"RecordValueSpecification"])], [k!"ApplicationValueSpecification", k!"ApplicationRuleBasedValueSpecification", k!"CompositeRuleBasedValueSpecification", k!"TextValueSpecification", k!"ConstantReference", k!"NumericalValueSpecification", k!"ArrayValueSpecification"], k!"writeRecordValueSpecification_RecordValueSpecification"⟩] .unsupported <|
      .nil) <|
    /- 1251 -/ .wrap (.any [(k!"timeoutSubstitutionValue", [])]) k!"TIMEOUT-SUBSTITUTION-VALUE" (
      /- 1253 -/ .each k!"timeoutSubstitutionValue" [] .plain [⟨[(false, [k!"ApplicationValueSpecification"])], [], k!"writeApplicationValueSpecification_ApplicationValueSpecification"⟩,
        ⟨[(false, [k!"ApplicationRuleBasedValueSpecification"])], [k!"ApplicationValueSpecification"], k!"writeApplicationRuleBasedValueSpecification_ApplicationRuleBasedValueSpecification"⟩,
        ⟨[(false, [k!"CompositeRuleBasedValueSpecification"])], [k!"ApplicationValueSpecification", k!"ApplicationRuleBasedValueSpecification"], k!"writeCompositeRuleBasedValueSpecification_CompositeRuleBasedValueSpecification"⟩,
        ⟨[(false, [k!"TextValueSpecification"])], [k!"ApplicationValueSpecification", k!"ApplicationRuleBasedValueSpecification", k!"CompositeRuleBasedValueSpecification"], k!"writeTextValueSpecification_TextValueSpecification"⟩,
        ⟨[(false, [k!"ConstantReference"])], [k!"ApplicationValueSpecification", k!"ApplicationRuleBasedValueSpecification", k!"CompositeRuleBasedValueSpecification", k!"TextValueSpecification"], k!"setConstantReference_ConstantReference"⟩,
        ⟨[(false, [k!"NumericalValueSpecification"])], [k!"ApplicationValueSpecification", k!"ApplicationRuleBasedValueSpecification", k!"CompositeRuleBasedValueSpecification", k!"TextValueSpecification", k!"ConstantReference"], k!"writeNumericalValueSpecification_NumericalValueSpecification"⟩,
        ⟨[(false, [k!"ArrayValueSpecification"])], [k!"ApplicationValueSpecification", k!"ApplicationRuleBasedValueSpecification", k!"CompositeRuleBasedValueSpecification", k!"TextValueSpecification", k!"ConstantReference", k!"NumericalValueSpecification"], k!"writeArrayValueSpecification_ArrayValueSpecification"⟩,
        ⟨[(false, [k!"RecordValueSpecification"])], [k!"ApplicationValueSpecification", k!"ApplicationRuleBasedValueSpecification", k!"CompositeRuleBasedValueSpecification", k!"TextValueSpecification", k!"ConstantReference", k!"NumericalValueSpecification", k!"ArrayValueSpecification"], k!"writeRecordValueSpecification_RecordValueSpecification"⟩] .unsupported <|
      .nil) <|
    .nil) <|
  .nil

/-- `writeSenderComSpec`, `writer/arxml_writer.py:1023-1034` -/
def writeSenderComSpec_SenderComSpec : WB :=
  /- 1026 -/ .wrap (.any [(k!"compositeNetworkRepresentations", [])]) k!"COMPOSITE-NETWORK-REPRESENTATIONS" (
    /- 1028 -/ .each k!"compositeNetworkRepresentations" [] .plain [⟨[], [], k!"writeCompositeNetworkRepresentation_CompositeNetworkRepresentation"⟩] .skip <|
    .nil) <|
  /- 1029 -/ .prim k!"DATA-ELEMENT-REF" .ref k!"dataElementRef" <|
  /- 1030 -/ .prim k!"HANDLE-OUT-OF-RANGE" .lit k!"handleOutOfRange" <|
  /- 1031 -/ .each k!"networkRepresentation" [] .plain [⟨[], [], k!"setSwDataDefProps_NETWORK_REPRESENTATION_SwDataDefProps"⟩] .skip <|
  /- 1032 -/ .each k!"transmissionAcknowledge" [] .plain [⟨[], [], k!"writeTransmissionAcknowledgementRequest_TransmissionAcknowledgementRequest"⟩] .skip <|
  /- 1033 -/ .each k!"transmissionProps" [] .plain [⟨[], [], k!"writeTransmissionComSpecProps_TransmissionComSpecProps"⟩] .skip <|
  /- 1034 -/ .prim k!"USES-END-TO-END-PROTECTION" .lit k!"usesEndToEndProtection" <|
  .nil

/-- `writeNonqueuedSenderComSpec`, `writer/arxml_writer.py:1036-1041` -/
def writeNonqueuedSenderComSpec_NonqueuedSenderComSpec : WB :=
  /- 1037 -/ .wrap .always k!"NONQUEUED-SENDER-COM-SPEC" (
    /- 1038 -/ .attr k!"T" .raw k!"timestamp" <|
    /- 1038 -/ .attr k!"UUID" .raw k!"uuid" <|
    /- 1039 -/ writeSenderComSpec_SenderComSpec.app <|
    /- 1040 -/ .each k!"dataFilter" [] .plain [⟨[], [], k!"setDataFilter_DATA_FILTER_DataFilter"⟩] .skip <|
    /- 1251 -/ .wrap (.any [(k!"initValue", [])]) k!"INIT-VALUE" (
      /- 1253 -/ .each k!"initValue" [] .plain [⟨[(false, [k!"ApplicationValueSpecification"])], [], k!"writeApplicationValueSpecification_ApplicationValueSpecification"⟩,
        ⟨[(false, [k!"ApplicationRuleBasedValueSpecification"])], [k!"ApplicationValueSpecification"], k!"writeApplicationRuleBasedValueSpecification_ApplicationRuleBasedValueSpecification"⟩,
        ⟨[(false, [k!"CompositeRuleBasedValueSpecification"])], [k!"ApplicationValueSpecification", k!"ApplicationRuleBasedValueSpecification"], k!"writeCompositeRuleBasedValueSpecification_CompositeRuleBasedValueSpecification"⟩,
        ⟨[(false, [k!"TextValueSpecification"])], [k!"ApplicationValueSpecification", k!"ApplicationRuleBasedValueSpecification", k!"CompositeRuleBasedValueSpecification"], k!"writeTextValueSpecification_TextValueSpecification"⟩,
        ⟨[(false, [k!"ConstantReference"])], [k!"ApplicationValueSpecification", k!"ApplicationRuleBasedValueSpecification", k!"CompositeRuleBasedValueSpecification", k!"TextValueSpecification"], k!"setConstantReference_ConstantReference"⟩,
        ⟨[(false, [k!"NumericalValueSpecification"])], [k!"ApplicationValueSpecification", k!"ApplicationRuleBasedValueSpecification", k!"CompositeRuleBasedValueSpecification", k!"TextValueSpecification", k!"ConstantReference"], k!"writeNumericalValueSpecification_NumericalValueSpecification"⟩,
        ⟨[(false, [k!"ArrayValueSpecification"])], [k!"ApplicationValueSpecification", k!"ApplicationRuleBasedValueSpecification", k!"CompositeRuleBasedValueSpecification", k!"TextValueSpecification", k!"ConstantReference", k!"NumericalValueSpecification"], k!"writeArrayValueSpecification_ArrayValueSpecification"⟩,
        ⟨[(false, [k!"RecordValueSpecification"])], [k!"ApplicationValueSpecification", k!"ApplicationRuleBasedValueSpecification", k!"CompositeRuleBasedValueSpecification", k!"TextValueSpecification", k!"ConstantReference", k!"NumericalValueSpecification", k!"ArrayValueSpecification"], k!"writeRecordValueSpecification_RecordValueSpecification"⟩] .unsupported <|
      .nil) <|
    .nil) <|
  .nil

/-- `writeNumericalOrText`, `writer/arxml_writer.py:2336-2341` -/
def writeNumericalOrText_VTF_NumericalOrText : WB :=
  /- 2338 -/ .wrap .always k!"VTF" (
    /- 2339 -/ .attr k!"T" .raw k!"timestamp" <|
    /- 2339 -/ .attr k!"UUID" .raw k!"uuid" <|
    /- 2340 -/ .prim k!"VF" .numerical k!"vf" <|
    /- 2341 -/ .prim k!"VT" .lit k!"vt" <|
    .nil) <|
  .nil

/-- `writeNumericalValueSpecification`, `writer/arxml_writer.py:1214-1218` -/
def writeNumericalValueSpecification_NumericalValueSpecification : WB :=
  /- 1216 -/ .wrap .always k!"NUMERICAL-VALUE-SPECIFICATION" (
    /- 1217 -/ writeValueSpecification_ValueSpecification.app <|
    /- 1218 -/ .prim k!"VALUE" .numerical k!"value" <|
    .nil) <|
  .nil

/-- `writeNvBlockDataMapping`, `writer/arxml_writer.py:2724-2732` -/
def writeNvBlockDataMapping_NvBlockDataMapping : WB :=
  /- 2725 -/ .wrap .always k!"NV-BLOCK-DATA-MAPPING" (
    /- 2726 -/ .attr k!"T" .raw k!"timestamp" <|
    /- 2726 -/ .attr k!"UUID" .raw k!"uuid" <|
    /- 2727 -/ .prim k!"BITFIELD-TEXT-TABLE-MASK-NV-BLOCK-DESCRIPTOR" .numerical k!"bitfieldTextTableMaskNvBlockDescriptor" <|
    /- 2728 -/ .prim k!"BITFIELD-TEXT-TABLE-MASK-PORT-PROTOTYPE" .numerical k!"bitfieldTextTableMaskPortPrototype" <|
    /- 2729 -/ .each k!"nvRamBlockElement" [] .plain [⟨[], [], k!"setAutosarVariableRef_NV_RAM_BLOCK_ELEMENT_AutosarVariableRef"⟩] .skip <|
    /- 2730 -/ .each k!"readNvData" [] .plain [⟨[], [], k!"setAutosarVariableRef_READ_NV_DATA_AutosarVariableRef"⟩] .skip <|
    /- 2731 -/ .each k!"writtenNvData" [] .plain [⟨[], [], k!"setAutosarVariableRef_WRITTEN_NV_DATA_AutosarVariableRef"⟩] .skip <|
    /- 2732 -/ .each k!"writtenReadNvData" [] .plain [⟨[], [], k!"setAutosarVariableRef_WRITTEN_READ_NV_DATA_AutosarVariableRef"⟩] .skip <|
    .nil) <|
  .nil

/-- `writeNvBlockDescriptor`, `writer/arxml_writer.py:2747-2812` -/
def writeNvBlockDescriptor_NvBlockDescriptor : WB :=
  /- 2748 -/ .wrap .always k!"NV-BLOCK-DESCRIPTOR" (
    /- 2749 -/ writeIdentifiable_ARPackage.app <|
    /- 2752 -/ .wrap (.any [(k!"clientServerPorts", [])]) k!"CLIENT-SERVER-PORTS" (
      /- 2755 -/ .each k!"clientServerPorts" [] .plain [⟨[(false, [k!"RoleBasedPortAssignment"])], [], k!"writeRoleBasedPortAssignment_RoleBasedPortAssignment"⟩] .unsupported <|
      .nil) <|
    /- 2760 -/ .wrap (.any [(k!"constantValueMappingRefs", [])]) k!"CONSTANT-VALUE-MAPPING-REFS" (
      /- 2762 -/ .prim k!"CONSTANT-VALUE-MAPPING-REF" .ref k!"constantValueMappingRefs" <|
      .nil) <|
    /- 2765 -/ .wrap (.any [(k!"dataTypeMappingRefs", [])]) k!"DATA-TYPE-MAPPING-REFS" (
      /- 2767 -/ .prim k!"DATA-TYPE-MAPPING-REF" .ref k!"dataTypeMappingRefs" <|
      .nil) <|
    /- 2770 -/ .wrap (.any [(k!"instantiationDataDefPropss", [])]) k!"INSTANTIATION-DATA-DEF-PROPSS" (
      /- 2773 -/ .each k!"instantiationDataDefPropss" [] .plain [⟨[(false, [k!"InstantiationDataDefProps"])], [], k!"writeNvBlockDescriptor_NvBlockDescriptor_L2773"⟩] .unsupported <|
      .nil) <|
    /- 2781 -/ .wrap (.any [(k!"modeSwitchEventTriggeredActivitys", [])]) k!"MODE-SWITCH-EVENT-TRIGGERED-ACTIVITYS" (
      /- 2784 -/ .each k!"modeSwitchEventTriggeredActivitys" [] .plain [⟨[(false, [k!"ModeSwitchEventTriggeredActivity"])], [], k!"writeModeSwitchEventTriggeredActivity_ModeSwitchEventTriggeredActivity"⟩] .unsupported <|
      .nil) <|
    /- 2789 -/ .wrap (.any [(k!"nvBlockDataMappings", [])]) k!"NV-BLOCK-DATA-MAPPINGS" (
      /- 2791 -/ .each k!"nvBlockDataMappings" [] .plain [⟨[], [], k!"writeNvBlockDataMapping_NvBlockDataMapping"⟩] .skip <|
      .nil) <|
    /- 2794 -/ .each k!"nvBlockNeeds" [] .plain [⟨[], [], k!"writeNvBlockNeeds_NvBlockNeeds"⟩] .skip <|
    /- 2797 -/ .each k!"ramBlock" [] .plain [⟨[], [], k!"writeNvBlockDescriptor_NvBlockDescriptor_L2797"⟩] .skip <|
    /- 2801 -/ .each k!"romBlock" [] .plain [⟨[], [], k!"writeNvBlockDescriptor_NvBlockDescriptor_L2801"⟩] .skip <|
    /- 2803 -/ .prim k!"SUPPORT-DIRTY-FLAG" .lit k!"supportDirtyFlag" <|
    /- 2804 -/ .prim k!"TIMING-EVENT-REF" .ref k!"timingEventRef" <|
    /- 2807 -/ .wrap (.any [(k!"writingStrategies", [])]) k!"WRITING-STRATEGYS" (
      /- 2810 -/ .each k!"writingStrategies" [] .plain [⟨[(false, [k!"RoleBasedDataAssignment"])], [], k!"writeRoleBasedDataAssignment_RoleBasedDataAssignment"⟩] .unsupported <|
      .nil) <|
    .nil) <|
  .nil

/-- `writeNvBlockDescriptor`, `writer/arxml_writer.py:2747-2812` (the block at line 2773); also `writeSwcInternalBehaviorInstantiationDataDefProps` -/
def writeNvBlockDescriptor_NvBlockDescriptor_L2773 : WB :=
  /- 2773 -/ .wrap .always k!"INSTANTIATION-DATA-DEF-PROPS" (
    /- 2774 -/ .each k!"parameterInstance" [] .plain [⟨[], [], k!"setAutosarParameterRef_PARAMETER_INSTANCE_AutosarParameterRef"⟩] .skip <|
    /- 2775 -/ .each k!"swDataDefProps" [] .plain [⟨[], [], k!"setSwDataDefProps_SW_DATA_DEF_PROPS_SwDataDefProps"⟩] .skip <|
    /- 2776 -/ .each k!"variableInstance" [] .plain [⟨[], [], k!"setAutosarVariableRef_VARIABLE_INSTANCE_AutosarVariableRef"⟩] .skip <|
    .nil) <|
  .nil

/-- `writeNvBlockDescriptor`, `writer/arxml_writer.py:2747-2812` (the block at line 2797) -/
def writeNvBlockDescriptor_NvBlockDescriptor_L2797 : WB :=
  /- 2797 -/ .wrap .always k!"RAM-BLOCK" (
    /- 2798 -/ writeAutosarDataPrototype_AutosarDataPrototype.app <|
    .nil) <|
  .nil

/-- `writeNvBlockDescriptor`, `writer/arxml_writer.py:2747-2812` (the block at line 2801) -/
def writeNvBlockDescriptor_NvBlockDescriptor_L2801 : WB :=
  /- 2801 -/ .wrap .always k!"ROM-BLOCK" (
    /- 2802 -/ writeAutosarDataPrototype_AutosarDataPrototype.app <|
    .nil) <|
  .nil

/-- `writeNvBlockNeeds`, `writer/arxml_writer.py:3517-3539` -/
def writeNvBlockNeeds_NvBlockNeeds : WB :=
  /- 3518 -/ .wrap .always k!"NV-BLOCK-NEEDS" (
    /- 3520 -/ writeARElement_System.app <|
    /- 3521 -/ .prim k!"CALC-RAM-BLOCK-CRC" .lit k!"calcRamBlockCrc" <|
    /- 3522 -/ .prim k!"CHECK-STATIC-BLOCK-ID" .lit k!"checkStaticBlockId" <|
    /- 3523 -/ .prim k!"N-DATA-SETS" .numerical k!"nDataSets" <|
    /- 3524 -/ .prim k!"N-ROM-BLOCKS" .numerical k!"nRomBlocks" <|
    /- 3525 -/ .prim k!"RAM-BLOCK-STATUS-CONTROL" .lit k!"ramBlockStatusControl" <|
    /- 3526 -/ .prim k!"READONLY" .lit k!"readonly" <|
    /- 3527 -/ .prim k!"RELIABILITY" .lit k!"reliability" <|
    /- 3528 -/ .prim k!"RESISTANT-TO-CHANGED-SW" .lit k!"resistantToChangedSw" <|
    /- 3529 -/ .prim k!"RESTORE-AT-START" .lit k!"restoreAtStart" <|
    /- 3530 -/ .prim k!"STORE-AT-SHUTDOWN" .lit k!"storeAtShutdown" <|
    /- 3531 -/ .prim k!"STORE-CYCLIC" .lit k!"storeCyclic" <|
    /- 3532 -/ .prim k!"STORE-EMERGENCY" .lit k!"storeEmergency" <|
    /- 3533 -/ .prim k!"STORE-IMMEDIATE" .lit k!"storeImmediate" <|
    /- 3534 -/ .prim k!"USE-AUTO-VALIDATION-AT-SHUT-DOWN" .lit k!"useAutoValidationAtShutDown" <|
    /- 3535 -/ .prim k!"USE-CRC-COMP-MECHANISM" .lit k!"useCRCCompMechanism" <|
    /- 3536 -/ .prim k!"WRITE-ONLY-ONCE" .lit k!"writeOnlyOnce" <|
    /- 3537 -/ .prim k!"WRITE-VERIFICATION" .lit k!"writeVerification" <|
    /- 3538 -/ .prim k!"WRITING-FREQUENCY" .numerical k!"writingFrequency" <|
    /- 3539 -/ .prim k!"WRITING-PRIORITY" .lit k!"writingPriority" <|
    .nil) <|
  .nil

/-- `writeNvBlockSwComponentType`, `writer/arxml_writer.py:5602-5615` -/
def writeNvBlockSwComponentType_NvBlockSwComponentType : WB :=
  /- 5604 -/ .wrap .always k!"NV-BLOCK-SW-COMPONENT-TYPE" (
    /- 5605 -/ writeAtomicSwComponentType_AtomicSwComponentType.app <|
    /- 5608 -/ .wrap (.any [(k!"bulkNvDataDescriptors", [])]) k!"BULK-NV-DATA-DESCRIPTORS" (
      /- 5610 -/ .each k!"bulkNvDataDescriptors" [] .plain [⟨[], [], k!"writeBulkNvDataDescriptor_BulkNvDataDescriptor"⟩] .skip <|
      .nil) <|
    /- 5613 -/ .wrap (.any [(k!"nvBlockDescriptors", [])]) k!"NV-BLOCK-DESCRIPTORS" (
      /- 5615 -/ .each k!"nvBlockDescriptors" [] .plain [⟨[], [], k!"writeNvBlockDescriptor_NvBlockDescriptor"⟩] .skip <|
      .nil) <|
    .nil) <|
  .nil

/-- `writeNvDataInterfaceNvDatas`, `writer/arxml_writer.py:5486-5494` -/
def writeNvDataInterfaceNvDatas_NvDataInterface : WB :=
  /- 5489 -/ .wrap (.any [(k!"elements", [k!"VariableDataPrototype"])]) k!"NV-DATAS" (
    /- 5492 -/ .each k!"elements" [k!"VariableDataPrototype"] .plain [⟨[(false, [k!"VariableDataPrototype"])], [], k!"writeVariableDataPrototype_VariableDataPrototype"⟩] .unsupported <|
    .nil) <|
  .nil

/-- `writeNvDataInterface`, `writer/arxml_writer.py:5496-5500` -/
def writeNvDataInterface_NvDataInterface : WB :=
  /- 5498 -/ .wrap .always k!"NV-DATA-INTERFACE" (
    /- 5499 -/ writeDataInterface_DataInterface.app <|
    /- 5500 -/ writeNvDataInterfaceNvDatas_NvDataInterface.app <|
    .nil) <|
  .nil

/-- `writeNvDataPortAnnotation`, `writer/arxml_writer.py:1453-1455` -/
def writeNvDataPortAnnotation_NvDataPortAnnotation : WB :=
  /- 1454 -/ .wrap .always k!"NV-DATA-PORT-ANNOTATION" (
    /- 1455 -/ .prim k!"VARIABLE-REF" .ref k!"variableRef" <|
    .nil) <|
  .nil

/-- `writeNvProvideComSpec`, `writer/arxml_writer.py:1101-1107` -/
def writeNvProvideComSpec_NvProvideComSpec : WB :=
  /- 1103 -/ .wrap .always k!"NV-PROVIDE-COM-SPEC" (
    /- 1104 -/ .attr k!"T" .raw k!"timestamp" <|
    /- 1104 -/ .attr k!"UUID" .raw k!"uuid" <|
    /- 1251 -/ .wrap (.any [(k!"ramBlockInitValue", [])]) k!"RAM-BLOCK-INIT-VALUE" (
      /- 1253 -/ .each k!"ramBlockInitValue" [] .plain [⟨[(false, [k!"ApplicationValueSpecification"])], [], k!"writeApplicationValueSpecification_ApplicationValueSpecification"⟩,
        ⟨[(false, [k!"ApplicationRuleBasedValueSpecification"])], [k!"ApplicationValueSpecification"], k!"writeApplicationRuleBasedValueSpecification_ApplicationRuleBasedValueSpecification"⟩,
        ⟨[(false, [k!"CompositeRuleBasedValueSpecification"])], [k!"ApplicationValueSpecification", k!"ApplicationRuleBasedValueSpecification"], k!"writeCompositeRuleBasedValueSpecification_CompositeRuleBasedValueSpecification"⟩,
        ⟨[(false, [k!"TextValueSpecification"])], [k!"ApplicationValueSpecification", k!"ApplicationRuleBasedValueSpecification", k!"CompositeRuleBasedValueSpecification"], k!"writeTextValueSpecification_TextValueSpecification"⟩,
        ⟨[(false, [k!"ConstantReference"])], [k!"ApplicationValueSpecification", k!"ApplicationRuleBasedValueSpecification", k!"CompositeRuleBasedValueSpecification", k!"TextValueSpecification"], k!"setConstantReference_ConstantReference"⟩,
        ⟨[(false, [k!"NumericalValueSpecification"])], [k!"ApplicationValueSpecification", k!"ApplicationRuleBasedValueSpecification", k!"CompositeRuleBasedValueSpecification", k!"TextValueSpecification", k!"ConstantReference"], k!"writeNumericalValueSpecification_NumericalValueSpecification"⟩,
        ⟨[(false, [k!"ArrayValueSpecification"])], [k!"ApplicationValueSpecification", k!"ApplicationRuleBasedValueSpecification", k!"CompositeRuleBasedValueSpecification", k!"TextValueSpecification", k!"ConstantReference", k!"NumericalValueSpecification"], k!"writeArrayValueSpecification_ArrayValueSpecification"⟩,
        ⟨[(false, [k!"RecordValueSpecification"])], [k!"ApplicationValueSpecification", k!"ApplicationRuleBasedValueSpecification", k!"CompositeRuleBasedValueSpecification", k!"TextValueSpecification", k!"ConstantReference", k!"NumericalValueSpecification", k!"ArrayValueSpecification"], k!"writeRecordValueSpecification_RecordValueSpecification"⟩] .unsupported <|
      .nil) <|
    /- 1251 -/ .wrap (.any [(k!"romBlockInitValue", [])]) k!"ROM-BLOCK-INIT-VALUE" (
      /- 1253 -/ .each k!"romBlockInitValue" [] .plain [⟨[(false, [k!"ApplicationValueSpecification"])], [], k!"writeApplicationValueSpecification_ApplicationValueSpecification"⟩,
        ⟨[(false, [k!"ApplicationRuleBasedValueSpecification"])], [k!"ApplicationValueSpecification"], k!"writeApplicationRuleBasedValueSpecification_ApplicationRuleBasedValueSpecification"⟩,
        ⟨[(false, [k!"CompositeRuleBasedValueSpecification"])], [k!"ApplicationValueSpecification", k!"ApplicationRuleBasedValueSpecification"], k!"writeCompositeRuleBasedValueSpecification_CompositeRuleBasedValueSpecification"⟩,
        ⟨[(false, [k!"TextValueSpecification"])], [k!"ApplicationValueSpecification", k!"ApplicationRuleBasedValueSpecification", k!"CompositeRuleBasedValueSpecification"], k!"writeTextValueSpecification_TextValueSpecification"⟩,
        ⟨[(false, [k!"ConstantReference"])], [k!"ApplicationValueSpecification", k!"ApplicationRuleBasedValueSpecification", k!"CompositeRuleBasedValueSpecification", k!"TextValueSpecification"], k!"setConstantReference_ConstantReference"⟩,
        ⟨[(false, [k!"NumericalValueSpecification"])], [k!"ApplicationValueSpecification", k!"ApplicationRuleBasedValueSpecification", k!"CompositeRuleBasedValueSpecification", k!"TextValueSpecification", k!"ConstantReference"], k!"writeNumericalValueSpecification_NumericalValueSpecification"⟩,
        ⟨[(false, [k!"ArrayValueSpecification"])], [k!"ApplicationValueSpecification", k!"ApplicationRuleBasedValueSpecification", k!"CompositeRuleBasedValueSpecification", k!"TextValueSpecification", k!"ConstantReference", k!"NumericalValueSpecification"], k!"writeArrayValueSpecification_ArrayValueSpecification"⟩,
        ⟨[(false, [k!"RecordValueSpecification"])], [k!"ApplicationValueSpecification", k!"ApplicationRuleBasedValueSpecification", k!"CompositeRuleBasedValueSpecification", k!"TextValueSpecification", k!"ConstantReference", k!"NumericalValueSpecification", k!"ArrayValueSpecification"], k!"writeRecordValueSpecification_RecordValueSpecification"⟩] .unsupported <|
      .nil) <|
    /- 1107 -/ .prim k!"VARIABLE-REF" .ref k!"variableRef" <|
    .nil) <|
  .nil

end Verif.Gen.W
