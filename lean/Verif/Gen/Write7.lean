import Verif.Gen.Write6
-- generated by tools/gen_codec.py; do not edit
namespace Verif.Gen.W
open Verif Verif.Model

/-- `writeNvRequireComSpec`, `writer/arxml_writer.py:1324-1329` -/
def writeNvRequireComSpec_NvRequireComSpec : WB :=
  /- 1326 -/ .wrap .always k!"NV-REQUIRE-COM-SPEC" (
    /- 1327 -/ .attr k!"T" .raw k!"timestamp" <|
    /- 1327 -/ .attr k!"UUID" .raw k!"uuid" <|
    /- 1251 -/ .wrap (.any [(k!"initValue", [])]) k!"INIT-VALUE" (
      /- 1253 -/ .each k!"initValue" [] .plain [⟨[(false, [k!"ApplicationValueSpecification"])], [], k!"writeApplicationValueSpecification_ApplicationValueSpecification"⟩,
        ⟨[(false, [k!"ApplicationRuleBasedValueSpecification"])], [k!"ApplicationValueSpecification"], k!"writeApplicationRuleBasedValueSpecification_ApplicationRuleBasedValueSpecification"⟩,
        ⟨[(false, [k!"CompositeRuleBasedValueSpecification"])], [k!"ApplicationValueSpecification", k!"ApplicationRuleBasedValueSpecification"], k!"writeCompositeRuleBasedValueSpecification_CompositeRuleBasedValueSpecification"⟩,
        ⟨[(false, [k!"TextValueSpecification"])], [k!"ApplicationValueSpecification", k!"ApplicationRuleBasedValueSpecification", k!"CompositeRuleBasedValueSpecification"], k!"writeTextValueSpecification_TextValueSpecification"⟩,
        ⟨[(false, [k!"ConstantReference"])], [k!"ApplicationValueSpecification", k!"ApplicationRuleBasedValueSpecification", k!"CompositeRuleBasedValueSpecification", k!"TextValueSpecification"], k!"setConstantReference_ConstantReference"⟩,
        ⟨[(false, [k!"NumericalValueSpecification"])], [k!"ApplicationValueSpecification", k!"ApplicationRuleBasedValueSpecification", k!"CompositeRuleBasedValueSpecification", k!"TextValueSpecification", k!"ConstantReference"], k!"writeNumericalValueSpecification_NumericalValueSpecification"⟩,
        ⟨[(false, [k!"ArrayValueSpecification"])], [k!"ApplicationValueSpecification", k!"ApplicationRuleBasedValueSpecification", k!"CompositeRuleBasedValueSpecification", k!"TextValueSpecification", k!"ConstantReference", k!"NumericalValueSpecification"], k!"writeArrayValueSpecification_ArrayValueSpecification"⟩,
        ⟨[(false, [k!"RecordValueSpecification"])], [k!"ApplicationValueSpecification", k!"ApplicationRuleBasedValueSpecification", k!"CompositeRuleBasedValueSpecification", k!"TextValueSpecification", k!"ConstantReference", k!"NumericalValueSpecification", k!"ArrayValueSpecification"], k!"writeRecordValueSpecification_RecordValueSpecification"⟩] .unsupported <|
      .nil) <|
    /- 1329 -/ .prim k!"VARIABLE-REF" .ref k!"variableRef" <|
    .nil) <|
  .nil

/-- `writeObdControlServiceNeeds`, `writer/arxml_writer.py:3586-3589` -/
def writeObdControlServiceNeeds_ObdControlServiceNeeds : WB :=
  /- 3587 -/ .wrap .always k!"OBD-CONTROL-SERVICE-NEEDS" (
    /- 3589 -/ writeDiagnosticCapabilityElement_DiagEventDebounceTimeBased.app <|
    .nil) <|
  .nil

/-- `writeObdInfoServiceNeeds`, `writer/arxml_writer.py:3567-3570` -/
def writeObdInfoServiceNeeds_ObdInfoServiceNeeds : WB :=
  /- 3568 -/ .wrap .always k!"OBD-INFO-SERVICE-NEEDS" (
    /- 3570 -/ writeDiagnosticCapabilityElement_DiagEventDebounceTimeBased.app <|
    .nil) <|
  .nil

/-- `writeObdMonitorServiceNeeds`, `writer/arxml_writer.py:3572-3579` -/
def writeObdMonitorServiceNeeds_ObdMonitorServiceNeeds : WB :=
  /- 3573 -/ .wrap .always k!"OBD-MONITOR-SERVICE-NEEDS" (
    /- 3575 -/ writeDiagnosticCapabilityElement_DiagEventDebounceTimeBased.app <|
    /- 3576 -/ .prim k!"APPLICATION-DATA-TYPE-REF" .ref k!"applicationDataTypeRef" <|
    /- 3577 -/ .prim k!"EVENT-NEEDS-REF" .ref k!"eventNeedsRef" <|
    /- 3578 -/ .prim k!"UNIT-AND-SCALING-ID" .numerical k!"unitAndScalingId" <|
    /- 3579 -/ .prim k!"UPDATE-KIND" .lit k!"updateKind" <|
    .nil) <|
  .nil

/-- `writeObdPidServiceNeeds`, `writer/arxml_writer.py:3581-3584` -/
def writeObdPidServiceNeeds_ObdPidServiceNeeds : WB :=
  /- 3582 -/ .wrap .always k!"OBD-PID-SERVICE-NEEDS" (
    /- 3584 -/ writeDiagnosticCapabilityElement_DiagEventDebounceTimeBased.app <|
    .nil) <|
  .nil

/-- `writeObdRatioDenominatorNeeds`, `writer/arxml_writer.py:3599-3603` -/
def writeObdRatioDenominatorNeeds_ObdRatioDenominatorNeeds : WB :=
  /- 3600 -/ .wrap .always k!"OBD-RATIO-DENOMINATOR-NEEDS" (
    /- 3602 -/ writeARElement_System.app <|
    /- 3603 -/ .prim k!"DENOMINATOR-CONDITION" .lit k!"denominatorCondition" <|
    .nil) <|
  .nil

/-- `writeObdRatioServiceNeeds`, `writer/arxml_writer.py:3591-3597` -/
def writeObdRatioServiceNeeds_ObdRatioServiceNeeds : WB :=
  /- 3592 -/ .wrap .always k!"OBD-RATIO-SERVICE-NEEDS" (
    /- 3594 -/ writeDiagnosticCapabilityElement_DiagEventDebounceTimeBased.app <|
    /- 3595 -/ .prim k!"CONNECTION-TYPE" .lit k!"connectionType" <|
    /- 3596 -/ .prim k!"RATE-BASED-MONITORED-EVENT-REF" .ref k!"rateBasedMonitoredEventRef" <|
    /- 3597 -/ .prim k!"USED-FID-REF" .ref k!"usedFidRef" <|
    .nil) <|
  .nil

/-- `writeOperationInvokedEvent`, `writer/arxml_writer.py:2577-2581` -/
def writeOperationInvokedEvent_OperationInvokedEvent : WB :=
  /- 2579 -/ .wrap .always k!"OPERATION-INVOKED-EVENT" (
    /- 2580 -/ setRTEEvent_RTEEvent.app <|
    /- 2581 -/ .each k!"operationIRef" [] .plain [⟨[], [], k!"setPOperationInAtomicSwcInstanceRef_OPERATION_IREF_POperationInAtomicSwcInstanceRef"⟩] .skip <|
    .nil) <|
  .nil

/-- `writePModeGroupInAtomicSWCInstanceRef`, `writer/arxml_writer.py:2952-2957` -/
def writePModeGroupInAtomicSWCInstanceRef_PModeGroupInAtomicSwcInstanceRef : WB :=
  /- 2954 -/ .wrap .always k!"P-MODE-GROUP-IN-ATOMIC-SWC-INSTANCE-REF" (
    /- 2955 -/ writeModeGroupInAtomicSwcInstanceRef_ModeGroupInAtomicSwcInstanceRef.app <|
    /- 2956 -/ .prim k!"CONTEXT-P-PORT-REF" .ref k!"contextPPortRef" <|
    /- 2957 -/ .prim k!"TARGET-MODE-GROUP-REF" .ref k!"targetModeGroupRef" <|
    .nil) <|
  .nil

/-- `writePPortPrototype`, `writer/arxml_writer.py:1362-1369` -/
def writePPortPrototype_PPortPrototype : WB :=
  /- 1363 -/ .wrap .always k!"P-PORT-PROTOTYPE" (
    /- 1365 -/ writeIdentifiable_ARPackage.app <|
    /- 1367 -/ setAbstractProvidedPortPrototype_PRPortPrototype.app <|
    /- 1368 -/ .prim k!"PROVIDED-INTERFACE-TREF" .ref k!"providedInterfaceTRef" <|
    /- 1369 -/ setPortPrototype_PortPrototype.app <|
    .nil) <|
  .nil

/-- `writePRPortPrototype`, `writer/arxml_writer.py:1386-1393` -/
def writePRPortPrototype_PRPortPrototype : WB :=
  /- 1388 -/ .wrap .always k!"PR-PORT-PROTOTYPE" (
    /- 1389 -/ writeIdentifiable_ARPackage.app <|
    /- 1390 -/ setAbstractProvidedPortPrototype_PRPortPrototype.app <|
    /- 1391 -/ setAbstractRequiredPortPrototype_PRPortPrototype.app <|
    /- 1392 -/ .prim k!"PROVIDED-REQUIRED-INTERFACE-TREF" .ref k!"providedRequiredInterface" <|
    /- 1393 -/ setPortPrototype_PortPrototype.app <|
    .nil) <|
  .nil

/-- `writePTriggerInAtomicSwcTypeInstanceRef`, `writer/arxml_writer.py:2959-2963` -/
def writePTriggerInAtomicSwcTypeInstanceRef_SWC_TRIGGER_IREF_PTriggerInAtomicSwcTypeInstanceRef : WB :=
  /- 2961 -/ .wrap .always k!"SWC-TRIGGER-IREF" (
    /- 2962 -/ .prim k!"CONTEXT-P-PORT-REF" .ref k!"contextPPortRef" <|
    /- 2963 -/ .prim k!"TARGET-TRIGGER-REF" .ref k!"targetTriggerRef" <|
    .nil) <|
  .nil

/-- `writePTriggerInAtomicSwcTypeInstanceRef`, `writer/arxml_writer.py:2959-2963` -/
def writePTriggerInAtomicSwcTypeInstanceRef_TRIGGER_IREF_PTriggerInAtomicSwcTypeInstanceRef : WB :=
  /- 2961 -/ .wrap .always k!"TRIGGER-IREF" (
    /- 2962 -/ .prim k!"CONTEXT-P-PORT-REF" .ref k!"contextPPortRef" <|
    /- 2963 -/ .prim k!"TARGET-TRIGGER-REF" .ref k!"targetTriggerRef" <|
    .nil) <|
  .nil

/-- `writeParameterAccess`, `writer/arxml_writer.py:2847-2850` -/
def writeParameterAccess_ParameterAccess : WB :=
  /- 2848 -/ .wrap .always k!"PARAMETER-ACCESS" (
    /- 2849 -/ writeIdentifiable_ARPackage.app <|
    /- 2850 -/ .each k!"accessedParameter" [] .plain [⟨[], [], k!"setAutosarParameterRef_ACCESSED_PARAMETER_AutosarParameterRef"⟩] .skip <|
    .nil) <|
  .nil

/-- `writeParameterDataPrototype`, `writer/arxml_writer.py:3240-3243` -/
def writeParameterDataPrototype_ParameterDataPrototype : WB :=
  /- 3241 -/ .wrap .always k!"PARAMETER-DATA-PROTOTYPE" (
    /- 3242 -/ writeAutosarDataPrototype_AutosarDataPrototype.app <|
    /- 1251 -/ .wrap (.any [(k!"initValue", [])]) k!"INIT-VALUE" (
      /- 1253 -/ .each k!"initValue" [] .plain [⟨[(false, [k!"ApplicationValueSpecification"])], [], k!"writeApplicationValueSpecification_ApplicationValueSpecification"⟩,
        ⟨[(false, [k!"ApplicationRuleBasedValueSpecification"])], [k!"ApplicationValueSpecification"], k!"writeApplicationRuleBasedValueSpecification_ApplicationRuleBasedValueSpecification"⟩,
        ⟨[(false, [k!"CompositeRuleBasedValueSpecification"])], [k!"ApplicationValueSpecification", k!"ApplicationRuleBasedValueSpecification"], k!"writeCompositeRuleBasedValueSpecification_CompositeRuleBasedValueSpecification"⟩,
        ⟨[(false, [k!"TextValueSpecification"])], [k!"ApplicationValueSpecification", k!"ApplicationRuleBasedValueSpecification", k!"CompositeRuleBasedValueSpecification"], k!"writeTextValueSpecification_TextValueSpecification"⟩,
        ⟨[(false, [k!"ConstantReference"])], [k!"ApplicationValueSpecification", k!"ApplicationRuleBasedValueSpecification", k!"CompositeRuleBasedValueSpecification", k!"TextValueSpecification"], k!"setConstantReference_ConstantReference"⟩,
        ⟨[(false, [k!"NumericalValueSpecification"])], [k!"ApplicationValueSpecification", k!"ApplicationRuleBasedValueSpecification", k!"CompositeRuleBasedValueSpecification", k!"TextValueSpecification", k!"ConstantReference"], k!"writeNumericalValueSpecification_NumericalValueSpecification"⟩,
        ⟨[(false, [k!"ArrayValueSpecification"])], [k!"ApplicationValueSpecification", k!"ApplicationRuleBasedValueSpecification", k!"CompositeRuleBasedValueSpecification", k!"TextValueSpecification", k!"ConstantReference", k!"NumericalValueSpecification"], k!"writeArrayValueSpecification_ArrayValueSpecification"⟩,
        ⟨[(false, [k!"RecordValueSpecification"])], [k!"ApplicationValueSpecification", k!"ApplicationRuleBasedValueSpecification", k!"CompositeRuleBasedValueSpecification", k!"TextValueSpecification", k!"ConstantReference", k!"NumericalValueSpecification", k!"ArrayValueSpecification"], k!"writeRecordValueSpecification_RecordValueSpecification"⟩] .unsupported <|
      .nil) <|
    .nil) <|
  .nil

/-- `writeParameterInterface`, `writer/arxml_writer.py:5480-5484` -/
def writeParameterInterface_ParameterInterface : WB :=
  /- 5482 -/ .wrap .always k!"PARAMETER-INTERFACE" (
    /- 5483 -/ writeDataInterface_DataInterface.app <|
    /- 3247 -/ .wrap (.any [(k!"parameters", [])]) k!"PARAMETERS" (
      /- 3249 -/ .each k!"parameters" [] .plain [⟨[], [], k!"writeParameterDataPrototype_ParameterDataPrototype"⟩] .skip <|
      .nil) <|
    .nil) <|
  .nil

/-- `writeParameterPortAnnotation`, `writer/arxml_writer.py:1457-1459` -/
def writeParameterPortAnnotation_ParameterPortAnnotation : WB :=
  /- 1458 -/ .wrap .always k!"PARAMETER-PORT-ANNOTATION" (
    /- 1459 -/ .prim k!"PARAMETER-REF" .ref k!"parameterRef" <|
    .nil) <|
  .nil

/-- `writeParameterProvideComSpec`, `writer/arxml_writer.py:1310-1315` -/
def writeParameterProvideComSpec_ParameterProvideComSpec : WB :=
  /- 1312 -/ .wrap .always k!"PARAMETER-PROVIDE-COM-SPEC" (
    /- 1313 -/ .attr k!"T" .raw k!"timestamp" <|
    /- 1313 -/ .attr k!"UUID" .raw k!"uuid" <|
    /- 1251 -/ .wrap (.any [(k!"initValue", [])]) k!"INIT-VALUE" (
      /- 1253 -/ .each k!"initValue" [] .plain [⟨[(false, [k!"ApplicationValueSpecification"])], [], k!"writeApplicationValueSpecification_ApplicationValueSpecification"⟩,
        ⟨[(false, [k!"ApplicationRuleBasedValueSpecification"])], [k!"ApplicationValueSpecification"], k!"writeApplicationRuleBasedValueSpecification_ApplicationRuleBasedValueSpecification"⟩,
        ⟨[(false, [k!"CompositeRuleBasedValueSpecification"])], [k!"ApplicationValueSpecification", k!"ApplicationRuleBasedValueSpecification"], k!"writeCompositeRuleBasedValueSpecification_CompositeRuleBasedValueSpecification"⟩,
        ⟨[(false, [k!"TextValueSpecification"])], [k!"ApplicationValueSpecification", k!"ApplicationRuleBasedValueSpecification", k!"CompositeRuleBasedValueSpecification"], k!"writeTextValueSpecification_TextValueSpecification"⟩,
        ⟨[(false, [k!"ConstantReference"])], [k!"ApplicationValueSpecification", k!"ApplicationRuleBasedValueSpecification", k!"CompositeRuleBasedValueSpecification", k!"TextValueSpecification"], k!"setConstantReference_ConstantReference"⟩,
        ⟨[(false, [k!"NumericalValueSpecification"])], [k!"ApplicationValueSpecification", k!"ApplicationRuleBasedValueSpecification", k!"CompositeRuleBasedValueSpecification", k!"TextValueSpecification", k!"ConstantReference"], k!"writeNumericalValueSpecification_NumericalValueSpecification"⟩,
        ⟨[(false, [k!"ArrayValueSpecification"])], [k!"ApplicationValueSpecification", k!"ApplicationRuleBasedValueSpecification", k!"CompositeRuleBasedValueSpecification", k!"TextValueSpecification", k!"ConstantReference", k!"NumericalValueSpecification"], k!"writeArrayValueSpecification_ArrayValueSpecification"⟩,
        ⟨[(false, [k!"RecordValueSpecification"])], [k!"ApplicationValueSpecification", k!"ApplicationRuleBasedValueSpecification", k!"CompositeRuleBasedValueSpecification", k!"TextValueSpecification", k!"ConstantReference", k!"NumericalValueSpecification", k!"ArrayValueSpecification"], k!"writeRecordValueSpecification_RecordValueSpecification"⟩] .unsupported <|
      .nil) <|
    /- 1315 -/ .prim k!"PARAMETER-REF" .ref k!"parameterRef" <|
    .nil) <|
  .nil

/-- `writeParameterRequireComSpec`, `writer/arxml_writer.py:1317-1322` -/
def writeParameterRequireComSpec_ParameterRequireComSpec : WB :=
  /- 1319 -/ .wrap .always k!"PARAMETER-REQUIRE-COM-SPEC" (
    /- 1320 -/ .attr k!"T" .raw k!"timestamp" <|
    /- 1320 -/ .attr k!"UUID" .raw k!"uuid" <|
    /- 1251 -/ .wrap (.any [(k!"initValue", [])]) k!"INIT-VALUE" (
      /- 1253 -/ .each k!"initValue" [] .plain [⟨[(false, [k!"ApplicationValueSpecification"])], [], k!"writeApplicationValueSpecification_ApplicationValueSpecification"⟩,
        ⟨[(false, [k!"ApplicationRuleBasedValueSpecification"])], [k!"ApplicationValueSpecification"], k!"writeApplicationRuleBasedValueSpecification_ApplicationRuleBasedValueSpecification"⟩,
        ⟨[(false, [k!"CompositeRuleBasedValueSpecification"])], [k!"ApplicationValueSpecification", k!"ApplicationRuleBasedValueSpecification"], k!"writeCompositeRuleBasedValueSpecification_CompositeRuleBasedValueSpecification"⟩,
        ⟨[(false, [k!"TextValueSpecification"])], [k!"ApplicationValueSpecification", k!"ApplicationRuleBasedValueSpecification", k!"CompositeRuleBasedValueSpecification"], k!"writeTextValueSpecification_TextValueSpecification"⟩,
        ⟨[(false, [k!"ConstantReference"])], [k!"ApplicationValueSpecification", k!"ApplicationRuleBasedValueSpecification", k!"CompositeRuleBasedValueSpecification", k!"TextValueSpecification"], k!"setConstantReference_ConstantReference"⟩,
        ⟨[(false, [k!"NumericalValueSpecification"])], [k!"ApplicationValueSpecification", k!"ApplicationRuleBasedValueSpecification", k!"CompositeRuleBasedValueSpecification", k!"TextValueSpecification", k!"ConstantReference"], k!"writeNumericalValueSpecification_NumericalValueSpecification"⟩,
        ⟨[(false, [k!"ArrayValueSpecification"])], [k!"ApplicationValueSpecification", k!"ApplicationRuleBasedValueSpecification", k!"CompositeRuleBasedValueSpecification", k!"TextValueSpecification", k!"ConstantReference", k!"NumericalValueSpecification"], k!"writeArrayValueSpecification_ArrayValueSpecification"⟩,
        ⟨[(false, [k!"RecordValueSpecification"])], [k!"ApplicationValueSpecification", k!"ApplicationRuleBasedValueSpecification", k!"CompositeRuleBasedValueSpecification", k!"TextValueSpecification", k!"ConstantReference", k!"NumericalValueSpecification", k!"ArrayValueSpecification"], k!"writeRecordValueSpecification_RecordValueSpecification"⟩] .unsupported <|
      .nil) <|
    /- 1322 -/ .prim k!"PARAMETER-REF" .ref k!"parameterRef" <|
    .nil) <|
  .nil

/-- `writePassThroughSwConnector`, `writer/arxml_writer.py:1724-1728` -/
def writePassThroughSwConnector_PassThroughSwConnector : WB :=
  /- 1725 -/ .wrap .always k!"PASS-THROUGH-SW-CONNECTOR" (
    /- 1726 -/ writeSwConnector_SwConnector.app <|
    /- 1727 -/ .prim k!"PROVIDED-OUTER-PORT-REF" .ref k!"providedOuterPortRef" <|
    /- 1728 -/ .prim k!"REQUIRED-OUTER-PORT-REF" .ref k!"requiredOuterPortRef" <|
    .nil) <|
  .nil

/-- `writePduToFrameMappings`, `writer/arxml_writer.py:5745-5754` (the block at line 5750) -/
def writePduToFrameMappings_Frame_L5750 : WB :=
  /- 5750 -/ .wrap .always k!"PDU-TO-FRAME-MAPPING" (
    /- 5751 -/ writeIdentifiable_ARPackage.app <|
    /- 5752 -/ .prim k!"PACKING-BYTE-ORDER" .lit k!"packingByteOrder" <|
    /- 5753 -/ .prim k!"PDU-REF" .ref k!"pduRef" <|
    /- 5754 -/ .prim k!"START-POSITION" .numerical k!"startPosition" <|
    .nil) <|
  .nil

/-- `writePduTriggering`, `writer/arxml_writer.py:6313-6329` -/
def writePduTriggering_PduTriggering : WB :=
  /- 6315 -/ .wrap .always k!"PDU-TRIGGERING" (
    /- 6316 -/ writeIdentifiable_ARPackage.app <|
    /- 6319 -/ .wrap (.any [(k!"iPduPortRefs", [])]) k!"I-PDU-PORT-REFS" (
      /- 6321 -/ .prim k!"I-PDU-PORT-REF" .ref k!"iPduPortRefs" <|
      .nil) <|
    /- 6322 -/ .prim k!"I-PDU-REF" .ref k!"iPduRef" <|
    /- 6326 -/ .wrap (.any [(k!"iSignalTriggeringRefs", [])]) k!"I-SIGNAL-TRIGGERINGS" (
      /- 6329 -/ .oprim k!"I-SIGNAL-TRIGGERING-REF-CONDITIONAL" k!"I-SIGNAL-TRIGGERING-REF" .ref k!"iSignalTriggeringRefs" <|
      .nil) <|
    .nil) <|
  .nil

/-- `writePhysicalDimension`, `writer/arxml_writer.py:8036-8046` -/
def writePhysicalDimension_PhysicalDimension : WB :=
  /- 8038 -/ .wrap .always k!"PHYSICAL-DIMENSION" (
    /- 8039 -/ writeARElement_System.app <|
    /- 8040 -/ .prim k!"LENGTH-EXP" .numerical k!"lengthExp" <|
    /- 8041 -/ .prim k!"LUMINOUS-INTENSITY-EXP" .numerical k!"luminousIntensityExp" <|
    /- 8042 -/ .prim k!"MASS-EXP" .numerical k!"massExp" <|
    /- 8043 -/ .prim k!"MOLAR-AMOUNT-EXP" .numerical k!"molarAmountExp" <|
    /- 8044 -/ .prim k!"TEMPERATURE-EXP" .numerical k!"temperatureExp" <|
    /- 8045 -/ .prim k!"TIME-EXP" .numerical k!"timeExp" <|
    /- 8046 -/ .prim k!"CURRENT-EXP" .numerical k!"currentExp" <|
    .nil) <|
  .nil

/-- `writePortGroupInnerGroupIRefs`, `writer/arxml_writer.py:1491-1496` -/
def writePortGroupInnerGroupIRefs_PortGroup : WB :=
  /- 1494 -/ .wrap (.any [(k!"_inner_group_iref", [])]) k!"INNER-GROUP-IREFS" (
    /- 1496 -/ .each k!"_inner_group_iref" [] .plain [⟨[], [], k!"writeInnerGroupIRef_InnerPortGroupInCompositionInstanceRef"⟩] .skip <|
    .nil) <|
  .nil

/-- `writePortGroupOuterPortRefs`, `writer/arxml_writer.py:1498-1504` -/
def writePortGroupOuterPortRefs_PortGroup : WB :=
  /- 1501 -/ .wrap (.any [(k!"_outer_port_ref", [])]) k!"OUTER-PORTS" (
    /- 1504 -/ .oprim k!"PORT-PROTOTYPE-REF-CONDITIONAL" k!"PORT-PROTOTYPE-REF" .ref k!"_outer_port_ref" <|
    .nil) <|
  .nil

/-- `writePortGroup`, `writer/arxml_writer.py:1506-1511` -/
def writePortGroup_PortGroup : WB :=
  /- 1508 -/ .wrap .always k!"PORT-GROUP" (
    /- 1509 -/ writeIdentifiable_ARPackage.app <|
    /- 1510 -/ writePortGroupInnerGroupIRefs_PortGroup.app <|
    /- 1511 -/ writePortGroupOuterPortRefs_PortGroup.app <|
    .nil) <|
  .nil

/-- `writePortInterfaceMappings`, `writer/arxml_writer.py:8162-8174` -/
def writePortInterfaceMappings_PortInterfaceMappingSet : WB :=
  /- 8165 -/ .wrap (.any [(k!"portInterfaceMappings", [])]) k!"PORT-INTERFACE-MAPPINGS" (
    /- 8168 -/ .each k!"portInterfaceMappings" [] .plain [⟨[(false, [k!"VariableAndParameterInterfaceMapping"])], [], k!"writeVariableAndParameterInterfaceMapping_VariableAndParameterInterfaceMapping"⟩,
      ⟨[(false, [k!"ClientServerInterfaceMapping"])], [k!"VariableAndParameterInterfaceMapping"], k!"writeClientServerInterfaceMapping_ClientServerInterfaceMapping"⟩,
      ⟨[(false, [k!"ModeInterfaceMapping"])], [k!"VariableAndParameterInterfaceMapping", k!"ClientServerInterfaceMapping"], k!"writeModeInterfaceMapping_ModeInterfaceMapping"⟩] .unsupported <|
    .nil) <|
  .nil

/-- `writePortInterfaceMappingSet`, `writer/arxml_writer.py:8176-8180` -/
def writePortInterfaceMappingSet_PortInterfaceMappingSet : WB :=
  /- 8178 -/ .wrap .always k!"PORT-INTERFACE-MAPPING-SET" (
    /- 8179 -/ writeARElement_System.app <|
    /- 8180 -/ writePortInterfaceMappings_PortInterfaceMappingSet.app <|
    .nil) <|
  .nil

/-- `writePortPrototypeBlueprint`, `writer/arxml_writer.py:6950-6955` -/
def writePortPrototypeBlueprint_PortPrototypeBlueprint : WB :=
  /- 6953 -/ .wrap .always k!"PORT-PROTOTYPE-BLUEPRINT" (
    /- 6954 -/ writeARElement_System.app <|
    /- 6955 -/ .prim k!"INTERFACE-REF" .ref k!"interfaceRef" <|
    .nil) <|
  .nil

/-- `writePostBuildVariantCondition`, `writer/arxml_writer.py:794-798` -/
def writePostBuildVariantCondition_PostBuildVariantCondition : WB :=
  /- 795 -/ .wrap .always k!"POST-BUILD-VARIANT-CONDITION" (
    /- 796 -/ .attr k!"T" .raw k!"timestamp" <|
    /- 796 -/ .attr k!"UUID" .raw k!"uuid" <|
    /- 797 -/ .prim k!"MATCHING-CRITERION-REF" .ref k!"matchingCriterionRef" <|
    /- 798 -/ .prim k!"VALUE" .numerical k!"value" <|
    .nil) <|
  .nil

/-- `writePostBuildVariantCriterion`, `writer/arxml_writer.py:8443-8451` -/
def writePostBuildVariantCriterion_PostBuildVariantCriterion : WB :=
  /- 8445 -/ .wrap .always k!"POST-BUILD-VARIANT-CRITERION" (
    /- 8446 -/ writeIdentifiable_ARPackage.app <|
    /- 8447 -/ .prim k!"COMPU-METHOD-REF" .ref k!"compuMethodRef" <|
    .nil) <|
  .nil

/-- `writePredefinedVariantIncludedVariantRefs`, `writer/arxml_writer.py:8396-8405` -/
def writePredefinedVariantIncludedVariantRefs_PredefinedVariant : WB :=
  /- 8399 -/ .wrap (.any [(k!"includedVariantRefs", [])]) k!"INCLUDED-VARIANT-REFS" (
    /- 8401 -/ .prim k!"INCLUDED-VARIANT-REF" .ref k!"includedVariantRefs" <|
    .nil) <|
  .nil

/-- `writePredefinedVariantPostBuildVariantCriterionValueSetRefs`, `writer/arxml_writer.py:8407-8419` -/
def writePredefinedVariantPostBuildVariantCriterionValueSetRefs_PredefinedVariant : WB :=
  /- 8410 -/ .wrap (.any [(k!"postBuildVariantCriterionValueSetRefs", [])]) k!"POST-BUILD-VARIANT-CRITERION-VALUE-SET-REFS" (
    /- 8415 -/ .prim k!"POST-BUILD-VARIANT-CRITERION-VALUE-SET-REF" .ref k!"postBuildVariantCriterionValueSetRefs" <|
    .nil) <|
  .nil

/-- `writePredefinedVariantSwSystemconstantValueSetRefs`, `writer/arxml_writer.py:8421-8433` -/
def writePredefinedVariantSwSystemconstantValueSetRefs_PredefinedVariant : WB :=
  /- 8424 -/ .wrap (.any [(k!"swSystemconstantValueSetRefs", [])]) k!"SW-SYSTEMCONSTANT-VALUE-SET-REFS" (
    /- 8429 -/ .prim k!"SW-SYSTEMCONSTANT-VALUE-SET-REF" .ref k!"swSystemconstantValueSetRefs" <|
    .nil) <|
  .nil

/-- `writePredefinedVariant`, `writer/arxml_writer.py:8435-8441` -/
def writePredefinedVariant_PredefinedVariant : WB :=
  /- 8437 -/ .wrap .always k!"PREDEFINED-VARIANT" (
    /- 8438 -/ writeIdentifiable_ARPackage.app <|
    /- 8439 -/ writePredefinedVariantIncludedVariantRefs_PredefinedVariant.app <|
    /- 8440 -/ writePredefinedVariantPostBuildVariantCriterionValueSetRefs_PredefinedVariant.app <|
    /- 8441 -/ writePredefinedVariantSwSystemconstantValueSetRefs_PredefinedVariant.app <|
    .nil) <|
  .nil

/-- `writeProvidedServiceInstanceEventHandlers`, `writer/arxml_writer.py:6668-6676` -/
def writeProvidedServiceInstanceEventHandlers_ProvidedServiceInstance : WB :=
  /- 6671 -/ .wrap (.any [(k!"eventHandlers", [])]) k!"EVENT-HANDLERS" (
    /- 6674 -/ .each k!"eventHandlers" [] .plain [⟨[(false, [k!"EventHandler"])], [], k!"writeEventHandler_EventHandler"⟩] .unsupported <|
    .nil) <|
  .nil

/-- `writeProvidedServiceInstance`, `writer/arxml_writer.py:6678-6719` -/
def writeProvidedServiceInstance_ProvidedServiceInstance : WB :=
  /- 6680 -/ .wrap .always k!"PROVIDED-SERVICE-INSTANCE" (
    /- 6681 -/ writeIdentifiable_ARPackage.app <|
    /- 6682 -/ writeProvidedServiceInstanceEventHandlers_ProvidedServiceInstance.app <|
    /- 6683 -/ .prim k!"INSTANCE-IDENTIFIER" .numerical k!"instanceIdentifier" <|
    /- 6684 -/ .prim k!"LOAD-BALANCING-PRIORITY" .numerical k!"loadBalancingPriority" <|
    /- 6685 -/ .prim k!"LOAD-BALANCING-WEIGHT" .numerical k!"loadBalancingWeight" <|
    /- 6688 -/ .wrap (.any [(k!"localUnicastAddressRefs", [])]) k!"LOCAL-UNICAST-ADDRESSS" (
      /- 6691 -/ .oprim k!"APPLICATION-ENDPOINT-REF-CONDITIONAL" k!"APPLICATION-ENDPOINT-REF" .ref k!"localUnicastAddressRefs" <|
      .nil) <|
    /- 6692 -/ .prim k!"MINOR-VERSION" .numerical k!"minorVersion" <|
    /- 6693 -/ .prim k!"PRIORITY" .numerical k!"priority" <|
    /- 6696 -/ .wrap (.any [(k!"remoteMulticastSubscriptionAddressRefs", [])]) k!"REMOTE-MULTICAST-SUBSCRIPTION-ADDRESSS" (
      /- 6699 -/ .oprim k!"APPLICATION-ENDPOINT-REF-CONDITIONAL" k!"APPLICATION-ENDPOINT-REF" .ref k!"remoteMulticastSubscriptionAddressRefs" <|
      .nil) <|
    /- 6702 -/ .wrap (.any [(k!"remoteUnicastAddressRefs", [])]) k!"REMOTE-UNICAST-ADDRESSS" (
      /- 6705 -/ .oprim k!"APPLICATION-ENDPOINT-REF-CONDITIONAL" k!"APPLICATION-ENDPOINT-REF" .ref k!"remoteUnicastAddressRefs" <|
      .nil) <|
    /- 6706 -/ .each k!"sdServerConfig" [] .plain [⟨[], [], k!"setSdServerConfig_SD_SERVER_CONFIG_SdServerConfig"⟩] .skip <|
    /- 6709 -/ .wrap (.any [(k!"sdServerTimerConfigRef", [])]) k!"SD-SERVER-TIMER-CONFIGS" (
      /- 6710 -/ .wrap (.any [(k!"sdServerTimerConfigRef", [])]) k!"SOMEIP-SD-SERVER-SERVICE-INSTANCE-CONFIG-REF-CONDITIONAL" (
        /- 6711 -/ .prim k!"SOMEIP-SD-SERVER-SERVICE-INSTANCE-CONFIG-REF" .ref k!"sdServerTimerConfigRef" <|
        .nil) <|
      .nil) <|
    /- 6714 -/ .wrap (.any [(k!"allowedServiceConsumerRefs", [])]) k!"ALLOWED-SERVICE-CONSUMERS" (
      /- 6717 -/ .oprim k!"NETWORK-ENDPOINT-REF-CONDITIONAL" k!"NETWORK-ENDPOINT-REF" .ref k!"allowedServiceConsumerRefs" <|
      .nil) <|
    /- 6718 -/ .prim k!"AUTO-AVAILABLE" .lit k!"autoAvailable" <|
    /- 6719 -/ .prim k!"SERVICE-IDENTIFIER" .numerical k!"serviceIdentifier" <|
    .nil) <|
  .nil

/-- `writeQueuedReceiverComSpec`, `writer/arxml_writer.py:1285-1289` -/
def writeQueuedReceiverComSpec_QueuedReceiverComSpec : WB :=
  /- 1286 -/ .wrap .always k!"QUEUED-RECEIVER-COM-SPEC" (
    /- 1287 -/ .attr k!"T" .raw k!"timestamp" <|
    /- 1287 -/ .attr k!"UUID" .raw k!"uuid" <|
    /- 1288 -/ writeReceiverComSpec_ReceiverComSpec.app <|
    /- 1289 -/ .prim k!"QUEUE-LENGTH" .numerical k!"queueLength" <|
    .nil) <|
  .nil

/-- `writeQueuedSenderComSpec`, `writer/arxml_writer.py:1083-1086` -/
def writeQueuedSenderComSpec_QueuedSenderComSpec : WB :=
  /- 1084 -/ .wrap .always k!"QUEUED-SENDER-COM-SPEC" (
    /- 1085 -/ .attr k!"T" .raw k!"timestamp" <|
    /- 1085 -/ .attr k!"UUID" .raw k!"uuid" <|
    /- 1086 -/ writeSenderComSpec_SenderComSpec.app <|
    .nil) <|
  .nil

/-- `writeRModeGroupInAtomicSWCInstanceRef`, `writer/arxml_writer.py:2945-2950` -/
def writeRModeGroupInAtomicSWCInstanceRef_RModeGroupInAtomicSWCInstanceRef : WB :=
  /- 2947 -/ .wrap .always k!"R-MODE-GROUP-IN-ATOMIC-SWC-INSTANCE-REF" (
    /- 2948 -/ writeModeGroupInAtomicSwcInstanceRef_ModeGroupInAtomicSwcInstanceRef.app <|
    /- 2949 -/ .prim k!"CONTEXT-R-PORT-REF" .ref k!"contextRPortRef" <|
    /- 2950 -/ .prim k!"TARGET-MODE-GROUP-REF" .ref k!"targetModeGroupRef" <|
    .nil) <|
  .nil

/-- `writeRPortPrototype`, `writer/arxml_writer.py:1378-1384` -/
def writeRPortPrototype_RPortPrototype : WB :=
  /- 1380 -/ .wrap .always k!"R-PORT-PROTOTYPE" (
    /- 1381 -/ writeIdentifiable_ARPackage.app <|
    /- 1382 -/ setAbstractRequiredPortPrototype_PRPortPrototype.app <|
    /- 1383 -/ .prim k!"REQUIRED-INTERFACE-TREF" .ref k!"requiredInterfaceTRef" <|
    /- 1384 -/ setPortPrototype_PortPrototype.app <|
    .nil) <|
  .nil

/-- `writeReceiverComSpec`, `writer/arxml_writer.py:1139-1165` (the block at line 1160) -/
def writeReceiverComSpec_ReceiverComSpec_L1160 : WB :=
  /- 1160 -/ .wrap .always k!"END-TO-END-TRANSFORMATION-COM-SPEC-PROPS" (
    /- 1161 -/ writeCommunicationCycle_CommunicationCycle.app <|
    .nil) <|
  .nil

/-- `writeReceiverReplaceWith`, `writer/arxml_writer.py:1174-1179` -/
def writeReceiverReplaceWith_REPLACE_WITH_VariableAccess : WB :=
  /- 1176 -/ .wrap .always k!"REPLACE-WITH" (
    /- 1177 -/ writeIdentifiable_ARPackage.app <|
    /- 1178 -/ .each k!"accessedVariableRef" [] .plain [⟨[], [], k!"setAutosarVariableRef_ACCESSED_VARIABLE_AutosarVariableRef"⟩] .skip <|
    /- 1179 -/ .prim k!"SCOPE" .lit k!"scope" <|
    .nil) <|
  .nil

/-- `writeReceptionComSpecProps`, `writer/arxml_writer.py:1167-1172` -/
def writeReceptionComSpecProps_RECEPTION_PROPS_ReceptionComSpecProps : WB :=
  /- 1169 -/ .wrap .always k!"RECEPTION-PROPS" (
    /- 1170 -/ .attr k!"T" .raw k!"timestamp" <|
    /- 1170 -/ .attr k!"UUID" .raw k!"uuid" <|
    /- 1171 -/ .prim k!"DATA-UPDATE-PERIOD" .lit k!"dataUpdatePeriod" <|
    /- 1172 -/ .prim k!"TIMEOUT" .lit k!"timeout" <|
    .nil) <|
  .nil

/-- `writeRecordValueSpecification`, `writer/arxml_writer.py:2431-2454` -/
def writeRecordValueSpecification_RecordValueSpecification : WB :=
  /- 2432 -/ .wrap .always k!"RECORD-VALUE-SPECIFICATION" (
    /- 2433 -/ .attr k!"T" .raw k!"timestamp" <|
    /- 2433 -/ .attr k!"UUID" .raw k!"uuid" <|
    /- 2434 -/ .prim k!"SHORT-LABEL" .lit k!"shortLabel" <|
    /- 2437 -/ .wrap (.any [(k!"fields", [])]) k!"FIELDS" (
      /- 2440 -/ .each k!"fields" [] .plain [⟨[(false, [k!"ApplicationValueSpecification"])], [], k!"writeApplicationValueSpecification_ApplicationValueSpecification"⟩,
        ⟨[(false, [k!"ApplicationRuleBasedValueSpecification"])], [k!"ApplicationValueSpecification"], k!"writeApplicationRuleBasedValueSpecification_ApplicationRuleBasedValueSpecification"⟩,
        ⟨[(false, [k!"CompositeRuleBasedValueSpecification"])], [k!"ApplicationValueSpecification", k!"ApplicationRuleBasedValueSpecification"], k!"writeCompositeRuleBasedValueSpecification_CompositeRuleBasedValueSpecification"⟩,
        ⟨[(false, [k!"NumericalValueSpecification"])], [k!"ApplicationValueSpecification", k!"ApplicationRuleBasedValueSpecification", k!"CompositeRuleBasedValueSpecification"], k!"writeNumericalValueSpecification_NumericalValueSpecification"⟩,
        ⟨[(false, [k!"TextValueSpecification"])], [k!"ApplicationValueSpecification", k!"ApplicationRuleBasedValueSpecification", k!"CompositeRuleBasedValueSpecification", k!"NumericalValueSpecification"], k!"writeTextValueSpecification_TextValueSpecification"⟩,
        ⟨[(false, [k!"ArrayValueSpecification"])], [k!"ApplicationValueSpecification", k!"ApplicationRuleBasedValueSpecification", k!"CompositeRuleBasedValueSpecification", k!"NumericalValueSpecification", k!"TextValueSpecification"], k!"writeArrayValueSpecification_ArrayValueSpecification"⟩,
        ⟨[(false, [k!"RecordValueSpecification"])], [k!"ApplicationValueSpecification", k!"ApplicationRuleBasedValueSpecification", k!"CompositeRuleBasedValueSpecification", k!"NumericalValueSpecification", k!"TextValueSpecification", k!"ArrayValueSpecification"], k!"writeRecordValueSpecification_RecordValueSpecification"⟩] .unsupported <|
      .nil) <|
    .nil) <|
  .nil

/-- `writeRoleBasedBswModuleEntryAssignment`, `writer/arxml_writer.py:3361-3365` -/
def writeRoleBasedBswModuleEntryAssignment_RoleBasedBswModuleEntryAssignment : WB :=
  /- 3362 -/ .wrap .always k!"ROLE-BASED-BSW-MODULE-ENTRY-ASSIGNMENT" (
    /- 3363 -/ .attr k!"T" .raw k!"timestamp" <|
    /- 3363 -/ .attr k!"UUID" .raw k!"uuid" <|
    /- 3364 -/ .prim k!"ASSIGNED-ENTRY-REF" .ref k!"assignedEntryRef" <|
    /- 3365 -/ .prim k!"ROLE" .lit k!"role" <|
    .nil) <|
  .nil

/-- `writeRoleBasedDataAssignment`, `writer/arxml_writer.py:3477-3482` -/
def writeRoleBasedDataAssignment_RoleBasedDataAssignment : WB :=
  /- 3478 -/ .wrap .always k!"ROLE-BASED-DATA-ASSIGNMENT" (
    /- 3479 -/ .prim k!"ROLE" .lit k!"role" <|
    /- 3480 -/ .each k!"usedDataElement" [] .plain [⟨[], [], k!"setAutosarVariableRef_USED_DATA_ELEMENT_AutosarVariableRef"⟩] .skip <|
    /- 3481 -/ .each k!"usedParameterElement" [] .plain [⟨[], [], k!"setAutosarParameterRef_USED_PARAMETER_ELEMENT_AutosarParameterRef"⟩] .skip <|
    /- 3482 -/ .prim k!"USED-PIM-REF" .ref k!"usedPimRef" <|
    .nil) <|
  .nil

/-- `writeRoleBasedDataTypeAssignment`, `writer/arxml_writer.py:3330-3333` -/
def writeRoleBasedDataTypeAssignment_RoleBasedDataTypeAssignment : WB :=
  /- 3331 -/ .wrap .always k!"ROLE-BASED-DATA-TYPE-ASSIGNMENT" (
    /- 3332 -/ .prim k!"ROLE" .lit k!"role" <|
    /- 3333 -/ .prim k!"USED-IMPLEMENTATION-DATA-TYPE-REF" .ref k!"usedImplementationDataTypeRef" <|
    .nil) <|
  .nil

/-- `writeRoleBasedPortAssignment`, `writer/arxml_writer.py:3484-3488` -/
def writeRoleBasedPortAssignment_RoleBasedPortAssignment : WB :=
  /- 3485 -/ .wrap .always k!"ROLE-BASED-PORT-ASSIGNMENT" (
    /- 3486 -/ .attr k!"T" .raw k!"timestamp" <|
    /- 3486 -/ .attr k!"UUID" .raw k!"uuid" <|
    /- 3487 -/ .prim k!"PORT-PROTOTYPE-REF" .ref k!"portPrototypeRef" <|
    /- 3488 -/ .prim k!"ROLE" .lit k!"role" <|
    .nil) <|
  .nil

/-- `writeRootSwCompositionPrototype`, `writer/arxml_writer.py:8003-8016` -/
def writeRootSwCompositionPrototype_System : WB :=
  /- 8007 -/ .wrap (.any [(k!"rootSoftwareComposition", [])]) k!"ROOT-SOFTWARE-COMPOSITIONS" (
    /- 8007 -/ .each k!"rootSoftwareComposition" [] .plain [⟨[], [], k!"writeRootSwCompositionPrototype_System_L8007"⟩] .skip <|
    .nil) <|
  .nil

/-- `writeRootSwCompositionPrototype`, `writer/arxml_writer.py:8003-8016` (the block at line 8007) -/
def writeRootSwCompositionPrototype_System_L8007 : WB :=
  /- 8008 -/ .wrap .always k!"ROOT-SW-COMPOSITION-PROTOTYPE" (
    /- 8009 -/ writeIdentifiable_ARPackage.app <|
    /- 8012 -/ .wrap (.any [(k!"calibrationParameterValueSetRefs", [])]) k!"CALIBRATION-PARAMETER-VALUE-SET-REFS" (
      /- 8014 -/ .prim k!"CALIBRATION-PARAMETER-VALUE-SET-REF" .ref k!"calibrationParameterValueSetRefs" <|
      .nil) <|
    /- 8015 -/ .prim k!"FLAT-MAP-REF" .ref k!"flatMapRef" <|
    /- 8016 -/ .prim k!"SOFTWARE-COMPOSITION-TREF" .ref k!"softwareCompositionTRef" <|
    .nil) <|
  .nil

/-- `writeRoughEstimateHeapUsage`, `writer/arxml_writer.py:4157-4160` -/
def writeRoughEstimateHeapUsage_RoughEstimateHeapUsage : WB :=
  /- 4158 -/ .wrap .always k!"ROUGH-ESTIMATE-HEAP-USAGE" (
    /- 4159 -/ writeHeapUsage_MeasuredHeapUsage.app <|
    /- 4160 -/ .prim k!"MEMORY-CONSUMPTION" .numerical k!"memoryConsumption" <|
    .nil) <|
  .nil

/-- `writeRoughEstimateOfExecutionTime`, `writer/arxml_writer.py:4122-4126` -/
def writeRoughEstimateOfExecutionTime_RoughEstimateOfExecutionTime : WB :=
  /- 4123 -/ .wrap .always k!"ROUGH-ESTIMATE-OF-EXECUTION-TIME" (
    /- 4124 -/ writeExecutionTime_AnalyzedExecutionTime.app <|
    /- 4125 -/ .prim k!"ADDITIONAL-INFORMATION" .lit k!"additionalInformation" <|
    /- 4126 -/ .each k!"estimatedExecutionTime" [] .plain [⟨[], [], k!"setMultidimensionalTime_ESTIMATED_EXECUTION_TIME_MultidimensionalTime"⟩] .skip <|
    .nil) <|
  .nil

/-- `writeRptComponent`, `writer/arxml_writer.py:4449-4462` -/
def writeRptComponent_RptComponent : WB :=
  /- 4450 -/ writeIdentifiable_ARPackage.app <|
  /- 4453 -/ .wrap (.any [(k!"mcDataAssignments", [])]) k!"MC-DATA-ASSIGNMENTS" (
    /- 4455 -/ .each k!"mcDataAssignments" [] .plain [⟨[], [], k!"writeRptComponent_RptComponent_L4455"⟩] .skip <|
    .nil) <|
  /- 4457 -/ .each k!"rpImplPolicy" [] .plain [⟨[], [], k!"writeRptComponent_RptComponent_L4457"⟩] .skip <|
  /- 4460 -/ .wrap (.any [(k!"rptExecutableEntities", [])]) k!"RPT-EXECUTABLE-ENTITYS" (
    /- 4462 -/ .each k!"rptExecutableEntities" [] .plain [⟨[], [], k!"writeRptComponent_RptComponent_L4462"⟩] .skip <|
    .nil) <|
  .nil

/-- `writeRptComponent`, `writer/arxml_writer.py:4449-4462` (the block at line 4457) -/
def writeRptComponent_RptComponent_L4457 : WB :=
  /- 4457 -/ .wrap .always k!"RP-IMPL-POLICY" (
    /- 4457 -/ writeRptImplPolicy_RptImplPolicy.app <|
    .nil) <|
  .nil

/-- `writeRptExecutableEntity`, `writer/arxml_writer.py:4430-4447` -/
def writeRptExecutableEntity_RptExecutableEntity : WB :=
  /- 4431 -/ writeIdentifiable_ARPackage.app <|
  /- 4434 -/ .wrap (.any [(k!"rptExecutableEntityEvents", [])]) k!"RPT-EXECUTABLE-ENTITY-EVENTS" (
    /- 4436 -/ .each k!"rptExecutableEntityEvents" [] .plain [⟨[], [], k!"writeRptExecutableEntity_RptExecutableEntity_L4436"⟩] .skip <|
    .nil) <|
  /- 4439 -/ .wrap (.any [(k!"rptReads", [])]) k!"RPT-READS" (
    /- 4441 -/ .each k!"rptReads" [] .plain [⟨[], [], k!"writeRptComponent_RptComponent_L4455"⟩] .skip <|
    .nil) <|
  /- 4444 -/ .wrap (.any [(k!"rptWrites", [])]) k!"RPT-WRITES" (
    /- 4446 -/ .each k!"rptWrites" [] .plain [⟨[], [], k!"writeRptComponent_RptComponent_L4455"⟩] .skip <|
    .nil) <|
  /- 4447 -/ .prim k!"SYMBOL" .lit k!"symbol" <|
  .nil

/-- `writeRptComponent`, `writer/arxml_writer.py:4449-4462` (the block at line 4462) -/
def writeRptComponent_RptComponent_L4462 : WB :=
  /- 4462 -/ .wrap .always k!"RPT-EXECUTABLE-ENTITY" (
    /- 4462 -/ writeRptExecutableEntity_RptExecutableEntity.app <|
    .nil) <|
  .nil

/-- `writeRptExecutableEntityEvent`, `writer/arxml_writer.py:4402-4428` -/
def writeRptExecutableEntityEvent_RptExecutableEntityEvent : WB :=
  /- 4403 -/ writeIdentifiable_ARPackage.app <|
  /- 4406 -/ .wrap (.any [(k!"executionContextRefs", [])]) k!"EXECUTION-CONTEXT-REFS" (
    /- 4408 -/ .prim k!"EXECUTION-CONTEXT-REF" .ref k!"executionContextRefs" <|
    .nil) <|
  /- 4411 -/ .wrap (.any [(k!"mcDataAssignments", [])]) k!"MC-DATA-ASSIGNMENTS" (
    /- 4413 -/ .each k!"mcDataAssignments" [] .plain [⟨[], [], k!"writeRptComponent_RptComponent_L4455"⟩] .skip <|
    .nil) <|
  /- 4414 -/ .prim k!"RPT-EVENT-ID" .numerical k!"rptEventId" <|
  /- 4416 -/ .each k!"rptExecutableEntityProperties" [] .plain [⟨[], [], k!"writeRptExecutableEntityEvent_RptExecutableEntityEvent_L4416"⟩] .skip <|
  /- 4418 -/ .each k!"rptImplPolicy" [] .plain [⟨[], [], k!"writeMcDataInstance_McDataInstance_L4361"⟩] .skip <|
  /- 4421 -/ .wrap (.any [(k!"rptServicePointPostRefs", [])]) k!"RPT-SERVICE-POINT-POST-REFS" (
    /- 4423 -/ .prim k!"RPT-SERVICE-POINT-POST-REF" .ref k!"rptServicePointPostRefs" <|
    .nil) <|
  /- 4426 -/ .wrap (.any [(k!"rptServicePointPreRefs", [])]) k!"RPT-SERVICE-POINT-PRE-REFS" (
    /- 4428 -/ .prim k!"RPT-SERVICE-POINT-PRE-REF" .ref k!"rptServicePointPreRefs" <|
    .nil) <|
  .nil

/-- `writeRptExecutableEntityProperties`, `writer/arxml_writer.py:4391-4395` -/
def writeRptExecutableEntityProperties_RptExecutableEntityProperties : WB :=
  /- 4392 -/ .prim k!"MAX-RPT-EVENT-ID" .numerical k!"maxRptEventId" <|
  /- 4393 -/ .prim k!"MIN-RPT-EVENT-ID" .numerical k!"minRptEventId" <|
  /- 4394 -/ .prim k!"RPT-EXECUTION-CONTROL" .lit k!"rptExecutionControl" <|
  /- 4395 -/ .prim k!"RPT-SERVICE-POINT" .lit k!"rptServicePoint" <|
  .nil

/-- `writeRptExecutableEntityEvent`, `writer/arxml_writer.py:4402-4428` (the block at line 4416) -/
def writeRptExecutableEntityEvent_RptExecutableEntityEvent_L4416 : WB :=
  /- 4416 -/ .wrap .always k!"RPT-EXECUTABLE-ENTITY-PROPERTIES" (
    /- 4416 -/ writeRptExecutableEntityProperties_RptExecutableEntityProperties.app <|
    .nil) <|
  .nil

/-- `writeRptExecutableEntity`, `writer/arxml_writer.py:4430-4447` (the block at line 4436) -/
def writeRptExecutableEntity_RptExecutableEntity_L4436 : WB :=
  /- 4436 -/ .wrap .always k!"RPT-EXECUTABLE-ENTITY-EVENT" (
    /- 4436 -/ writeRptExecutableEntityEvent_RptExecutableEntityEvent.app <|
    .nil) <|
  .nil

/-- `writeRptServicePoint`, `writer/arxml_writer.py:4397-4400` -/
def writeRptServicePoint_RptServicePoint : WB :=
  /- 4398 -/ writeIdentifiable_ARPackage.app <|
  /- 4399 -/ .prim k!"SERVICE-ID" .numerical k!"serviceId" <|
  /- 4400 -/ .prim k!"SYMBOL" .lit k!"symbol" <|
  .nil

/-- `writeRptSupportData`, `writer/arxml_writer.py:4464-4480` -/
def writeRptSupportData_RptSupportData : WB :=
  /- 4465 -/ .wrap .always k!"RPT-SUPPORT-DATA" (
    /- 4468 -/ .wrap (.any [(k!"executionContexts", [])]) k!"EXECUTION-CONTEXTS" (
      /- 4470 -/ .each k!"executionContexts" [] .plain [⟨[], [], k!"writeRptSupportData_RptSupportData_L4470"⟩] .skip <|
      .nil) <|
    /- 4473 -/ .wrap (.any [(k!"rptComponents", [])]) k!"RPT-COMPONENTS" (
      /- 4475 -/ .each k!"rptComponents" [] .plain [⟨[], [], k!"writeRptSupportData_RptSupportData_L4475"⟩] .skip <|
      .nil) <|
    /- 4478 -/ .wrap (.any [(k!"rptServicePoints", [])]) k!"RPT-SERVICE-POINTS" (
      /- 4480 -/ .each k!"rptServicePoints" [] .plain [⟨[], [], k!"writeRptSupportData_RptSupportData_L4480"⟩] .skip <|
      .nil) <|
    .nil) <|
  .nil

/-- `writeRptSupportData`, `writer/arxml_writer.py:4464-4480` (the block at line 4470) -/
def writeRptSupportData_RptSupportData_L4470 : WB :=
  /- 4470 -/ .wrap .always k!"RPT-EXECUTION-CONTEXT" (
    /- 4470 -/ writeIdentifiable_ARPackage.app <|
    .nil) <|
  .nil

/-- `writeRptSupportData`, `writer/arxml_writer.py:4464-4480` (the block at line 4475) -/
def writeRptSupportData_RptSupportData_L4475 : WB :=
  /- 4475 -/ .wrap .always k!"RPT-COMPONENT" (
    /- 4475 -/ writeRptComponent_RptComponent.app <|
    .nil) <|
  .nil

/-- `writeRptSupportData`, `writer/arxml_writer.py:4464-4480` (the block at line 4480) -/
def writeRptSupportData_RptSupportData_L4480 : WB :=
  /- 4480 -/ .wrap .always k!"RPT-SERVICE-POINT" (
    /- 4480 -/ writeRptServicePoint_RptServicePoint.app <|
    .nil) <|
  .nil

/-- `writeRuleArguments`, `writer/arxml_writer.py:2343-2350` -/
def writeRuleArguments_RuleArguments : WB :=
  /- 2345 -/ .wrap .always k!"RULE-ARGUMENTS" (
    /- 2346 -/ .attr k!"T" .raw k!"timestamp" <|
    /- 2346 -/ .attr k!"UUID" .raw k!"uuid" <|
    /- 2347 -/ .prim k!"V" .numerical k!"v" <|
    /- 2348 -/ .prim k!"VF" .numerical k!"vf" <|
    /- 2349 -/ .prim k!"VT" .lit k!"vt" <|
    /- 2350 -/ .each k!"vtf" [] .plain [⟨[], [], k!"writeNumericalOrText_VTF_NumericalOrText"⟩] .skip <|
    .nil) <|
  .nil

/-- `writeRuleBasedAxisCont`, `writer/arxml_writer.py:2364-2372` -/
def writeRuleBasedAxisCont_RuleBasedAxisCont : WB :=
  /- 2366 -/ .wrap .always k!"RULE-BASED-AXIS-CONT" (
    /- 2367 -/ .attr k!"T" .raw k!"timestamp" <|
    /- 2367 -/ .attr k!"UUID" .raw k!"uuid" <|
    /- 2368 -/ .prim k!"CATEGORY" .lit k!"category" <|
    /- 2369 -/ .prim k!"UNIT-REF" .ref k!"unitRef" <|
    /- 2370 -/ .each k!"swArraysize" [] .plain [⟨[], [], k!"setValueList_SW_ARRAYSIZE_ValueList"⟩] .skip <|
    /- 2371 -/ .prim k!"SW-AXIS-INDEX" .lit k!"swAxisIndex" <|
    /- 2372 -/ .each k!"ruleBasedValues" [] .plain [⟨[], [], k!"writeRuleBasedValueSpecification_RULE_BASED_VALUES_RuleBasedValueSpecification"⟩] .skip <|
    .nil) <|
  .nil

/-- `writeRuleBasedValueCont`, `writer/arxml_writer.py:2374-2380` -/
def writeRuleBasedValueCont_RuleBasedValueCont : WB :=
  /- 2376 -/ .wrap .always k!"SW-VALUE-CONT" (
    /- 2377 -/ .attr k!"T" .raw k!"timestamp" <|
    /- 2377 -/ .attr k!"UUID" .raw k!"uuid" <|
    /- 2378 -/ .prim k!"UNIT-REF" .ref k!"unitRef" <|
    /- 2379 -/ .each k!"swArraysize" [] .plain [⟨[], [], k!"setValueList_SW_ARRAYSIZE_ValueList"⟩] .skip <|
    /- 2380 -/ .each k!"ruleBasedValues" [] .plain [⟨[], [], k!"writeRuleBasedValueSpecification_RULE_BASED_VALUES_RuleBasedValueSpecification"⟩] .skip <|
    .nil) <|
  .nil

/-- `writeRuleBasedValueSpecification`, `writer/arxml_writer.py:2352-2362` -/
def writeRuleBasedValueSpecification_RULE_BASED_VALUES_RuleBasedValueSpecification : WB :=
  /- 2354 -/ .wrap .always k!"RULE-BASED-VALUES" (
    /- 2355 -/ .attr k!"T" .raw k!"timestamp" <|
    /- 2355 -/ .attr k!"UUID" .raw k!"uuid" <|
    /- 2356 -/ .prim k!"RULE" .lit k!"rule" <|
    /- 2359 -/ .wrap (.any [(k!"arguments", [])]) k!"ARGUMENTSS" (
      /- 2361 -/ .each k!"arguments" [] .plain [⟨[], [], k!"writeRuleArguments_RuleArguments"⟩] .skip <|
      .nil) <|
    /- 2362 -/ .prim k!"MAX-SIZE-TO-FILL" .numerical k!"maxSizeToFill" <|
    .nil) <|
  .nil

/-- `writeRunnableEntityArguments`, `writer/arxml_writer.py:3144-3152` -/
def writeRunnableEntityArguments_RunnableEntity : WB :=
  /- 3147 -/ .wrap (.any [(k!"arguments", [])]) k!"ARGUMENTS" (
    /- 3150 -/ .each k!"arguments" [] .plain [⟨[(false, [k!"RunnableEntityArgument"])], [], k!"setRunnableEntityArgument_RunnableEntityArgument"⟩] .unsupported <|
    .nil) <|
  .nil

/-- `writeRunnableEntityAsynchronousServerCallResultPoint`, `writer/arxml_writer.py:3167-3174` -/
def writeRunnableEntityAsynchronousServerCallResultPoint_RunnableEntity : WB :=
  /- 3170 -/ .wrap (.any [(k!"elements", [k!"AsynchronousServerCallResultPoint"])]) k!"ASYNCHRONOUS-SERVER-CALL-RESULT-POINTS" (
    /- 3172 -/ .each k!"elements" [k!"AsynchronousServerCallResultPoint"] .sorted [⟨[], [], k!"writeRunnableEntityAsynchronousServerCallResultPoint_RunnableEntity_L3172"⟩] .skip <|
    .nil) <|
  .nil

/-- `writeRunnableEntityAsynchronousServerCallResultPoint`, `writer/arxml_writer.py:3167-3174` (the block at line 3172) -/
def writeRunnableEntityAsynchronousServerCallResultPoint_RunnableEntity_L3172 : WB :=
  /- 3172 -/ .wrap .always k!"ASYNCHRONOUS-SERVER-CALL-RESULT-POINT" (
    /- 3173 -/ writeIdentifiable_ARPackage.app <|
    /- 3174 -/ .prim k!"ASYNCHRONOUS-SERVER-CALL-POINT-REF" .ref k!"asynchronousServerCallPointRef" <|
    .nil) <|
  .nil

/-- `writeRunnableEntityDataReadAccesses`, `writer/arxml_writer.py:2880-2885` -/
def writeRunnableEntityDataReadAccesses_RunnableEntity : WB :=
  /- 2883 -/ .wrap (.any [(k!"dataReadAccesses", [])]) k!"DATA-READ-ACCESSS" (
    /- 2885 -/ .each k!"dataReadAccesses" [] .sorted [⟨[], [], k!"writeVariableAccess_VariableAccess"⟩] .skip <|
    .nil) <|
  .nil

/-- `writeRunnableEntityDataReceivePointByArguments`, `writer/arxml_writer.py:2859-2864` -/
def writeRunnableEntityDataReceivePointByArguments_RunnableEntity : WB :=
  /- 2862 -/ .wrap (.any [(k!"dataReceivePointByArguments", [])]) k!"DATA-RECEIVE-POINT-BY-ARGUMENTS" (
    /- 2864 -/ .each k!"dataReceivePointByArguments" [] .sorted [⟨[], [], k!"writeVariableAccess_VariableAccess"⟩] .skip <|
    .nil) <|
  .nil

/-- `writeRunnableEntityDataReceivePointByValues`, `writer/arxml_writer.py:2866-2871` -/
def writeRunnableEntityDataReceivePointByValues_RunnableEntity : WB :=
  /- 2869 -/ .wrap (.any [(k!"dataReceivePointByValues", [])]) k!"DATA-RECEIVE-POINT-BY-VALUES" (
    /- 2871 -/ .each k!"dataReceivePointByValues" [] .sorted [⟨[], [], k!"writeVariableAccess_VariableAccess"⟩] .skip <|
    .nil) <|
  .nil

/-- `writeRunnableEntityDataSendPoints`, `writer/arxml_writer.py:2873-2878` -/
def writeRunnableEntityDataSendPoints_RunnableEntity : WB :=
  /- 2876 -/ .wrap (.any [(k!"dataSendPoints", [])]) k!"DATA-SEND-POINTS" (
    /- 2878 -/ .each k!"dataSendPoints" [] .plain [⟨[], [], k!"writeVariableAccess_VariableAccess"⟩] .skip <|
    .nil) <|
  .nil

/-- `writeRunnableEntityDataWriteAccesses`, `writer/arxml_writer.py:2887-2892` -/
def writeRunnableEntityDataWriteAccesses_RunnableEntity : WB :=
  /- 2890 -/ .wrap (.any [(k!"dataWriteAccesses", [])]) k!"DATA-WRITE-ACCESSS" (
    /- 2892 -/ .each k!"dataWriteAccesses" [] .sorted [⟨[], [], k!"writeVariableAccess_VariableAccess"⟩] .skip <|
    .nil) <|
  .nil

/-- `writeRunnableEntityExternalTriggeringPoints`, `writer/arxml_writer.py:3093-3105` -/
def writeRunnableEntityExternalTriggeringPoints_RunnableEntity : WB :=
  /- 3096 -/ .wrap (.any [(k!"externalTriggeringPoints", [])]) k!"EXTERNAL-TRIGGERING-POINTS" (
    /- 3098 -/ .each k!"externalTriggeringPoints" [] .plain [⟨[], [], k!"writeRunnableEntityExternalTriggeringPoints_RunnableEntity_L3098"⟩] .skip <|
    .nil) <|
  .nil

/-- `writeRunnableEntityExternalTriggeringPoints`, `writer/arxml_writer.py:3093-3105` (the block at line 3098) -/
def writeRunnableEntityExternalTriggeringPoints_RunnableEntity_L3098 : WB :=
  /- 3098 -/ .wrap .always k!"EXTERNAL-TRIGGERING-POINT" (
    /- 3101 -/ .each k!"ident" [] .plain [⟨[], [], k!"writeBswServiceDependencyIdent_BswServiceDependencyIdent"⟩] .skip <|
    /- 3105 -/ .each k!"trigger" [] .plain [⟨[], [], k!"writePTriggerInAtomicSwcTypeInstanceRef_TRIGGER_IREF_PTriggerInAtomicSwcTypeInstanceRef"⟩] .skip <|
    .nil) <|
  .nil

/-- `writeRunnableEntityGroupRunnableEntityGroupIRefs`, `writer/arxml_writer.py:3015-3020` -/
def writeRunnableEntityGroupRunnableEntityGroupIRefs_RunnableEntityGroup : WB :=
  /- 3018 -/ .wrap (.any [(k!"runnableEntityGroupIRefs", [])]) k!"RUNNABLE-ENTITY-GROUP-IREFS" (
    /- 3020 -/ .each k!"runnableEntityGroupIRefs" [] .plain [⟨[], [], k!"writeInnerRunnableEntityGroupInCompositionInstanceRef_RUNNABLE_ENTITY_GROUP_IREF_InnerRunnableEntityGroupInCompositionInstanceRef"⟩] .skip <|
    .nil) <|
  .nil

/-- `writeRunnableEntityGroupRunnableEntityIRefs`, `writer/arxml_writer.py:3022-3027` -/
def writeRunnableEntityGroupRunnableEntityIRefs_RunnableEntityGroup : WB :=
  /- 3025 -/ .wrap (.any [(k!"runnableEntityIRefs", [])]) k!"RUNNABLE-ENTITY-IREFS" (
    /- 3027 -/ .each k!"runnableEntityIRefs" [] .plain [⟨[], [], k!"writeRunnableEntityInCompositionInstanceRef_RUNNABLE_ENTITY_IREF_RunnableEntityInCompositionInstanceRef"⟩] .skip <|
    .nil) <|
  .nil

/-- `writeRunnableEntityGroup`, `writer/arxml_writer.py:3029-3034` -/
def writeRunnableEntityGroup_RunnableEntityGroup : WB :=
  /- 3031 -/ .wrap .always k!"RUNNABLE-ENTITY-GROUP" (
    /- 3032 -/ writeIdentifiable_ARPackage.app <|
    /- 3033 -/ writeRunnableEntityGroupRunnableEntityGroupIRefs_RunnableEntityGroup.app <|
    /- 3034 -/ writeRunnableEntityGroupRunnableEntityIRefs_RunnableEntityGroup.app <|
    .nil) <|
  .nil

/-- `writeRunnableEntityInCompositionInstanceRef`, `writer/arxml_writer.py:2979-2984` -/
def writeRunnableEntityInCompositionInstanceRef_RUNNABLE_ENTITY_IREF_RunnableEntityInCompositionInstanceRef : WB :=
  /- 2981 -/ .wrap .always k!"RUNNABLE-ENTITY-IREF" (
    /- 2983 -/ .prim k!"CONTEXT-SW-COMPONENT-PROTOTYPE-REF" .ref k!"contextSwComponentPrototypeRefs" <|
    /- 2984 -/ .prim k!"TARGET-RUNNABLE-ENTITY-REF" .ref k!"targetRunnableEntityRef" <|
    .nil) <|
  .nil

/-- `writeRunnableEntityModeAccessPoints`, `writer/arxml_writer.py:3107-3115` -/
def writeRunnableEntityModeAccessPoints_RunnableEntity : WB :=
  /- 3110 -/ .wrap (.any [(k!"modeAccessPoints", [])]) k!"MODE-ACCESS-POINTS" (
    /- 3113 -/ .each k!"modeAccessPoints" [] .plain [⟨[(false, [k!"ModeAccessPoint"])], [], k!"writeModeAccessPoint_ModeAccessPoint"⟩] .unsupported <|
    .nil) <|
  .nil

/-- `writeRunnableEntityModeSwitchPoints`, `writer/arxml_writer.py:3130-3138` -/
def writeRunnableEntityModeSwitchPoints_RunnableEntity : WB :=
  /- 3133 -/ .wrap (.any [(k!"elements", [k!"ModeSwitchPoint"])]) k!"MODE-SWITCH-POINTS" (
    /- 3136 -/ .each k!"elements" [k!"ModeSwitchPoint"] .sorted [⟨[(false, [k!"ModeSwitchPoint"])], [], k!"writeModeSwitchPoint_ModeSwitchPoint"⟩] .unsupported <|
    .nil) <|
  .nil

/-- `writeRunnableEntityParameterAccesses`, `writer/arxml_writer.py:2852-2857` -/
def writeRunnableEntityParameterAccesses_RunnableEntity : WB :=
  /- 2855 -/ .wrap (.any [(k!"elements", [k!"ParameterAccess"])]) k!"PARAMETER-ACCESSS" (
    /- 2857 -/ .each k!"elements" [k!"ParameterAccess"] .sorted [⟨[], [], k!"writeParameterAccess_ParameterAccess"⟩] .skip <|
    .nil) <|
  .nil

/-- `writeRunnableEntityReadLocalVariables`, `writer/arxml_writer.py:2894-2899` -/
def writeRunnableEntityReadLocalVariables_RunnableEntity : WB :=
  /- 2897 -/ .wrap (.any [(k!"readLocalVariables", [])]) k!"READ-LOCAL-VARIABLES" (
    /- 2899 -/ .each k!"readLocalVariables" [] .plain [⟨[], [], k!"writeVariableAccess_VariableAccess"⟩] .skip <|
    .nil) <|
  .nil

/-- `writeRunnableEntityServerCallPoints`, `writer/arxml_writer.py:2922-2932` -/
def writeRunnableEntityServerCallPoints_RunnableEntity : WB :=
  /- 2925 -/ .wrap (.any [(k!"elements", [k!"ServerCallPoint"])]) k!"SERVER-CALL-POINTS" (
    /- 2928 -/ .each k!"elements" [k!"ServerCallPoint"] .sorted [⟨[(false, [k!"SynchronousServerCallPoint"])], [], k!"setSynchronousServerCallPoint_SynchronousServerCallPoint"⟩,
      ⟨[(false, [k!"AsynchronousServerCallPoint"])], [k!"SynchronousServerCallPoint"], k!"setAsynchronousServerCallPoint_AsynchronousServerCallPoint"⟩] .unsupported <|
    .nil) <|
  .nil

/-- `writeRunnableEntityWaitPoints`, `writer/arxml_writer.py:3154-3165` -/
def writeRunnableEntityWaitPoints_RunnableEntity : WB :=
  /- 3157 -/ .wrap (.any [(k!"waitPoints", [])]) k!"WAIT-POINTS" (
    /- 3160 -/ .each k!"waitPoints" [] .plain [⟨[(false, [k!"WaitPoint"])], [], k!"writeRunnableEntityWaitPoints_RunnableEntity_L3160"⟩] .unsupported <|
    .nil) <|
  .nil

/-- `writeRunnableEntityWaitPoints`, `writer/arxml_writer.py:3154-3165` (the block at line 3160) -/
def writeRunnableEntityWaitPoints_RunnableEntity_L3160 : WB :=
  /- 3160 -/ .wrap .always k!"WAIT-POINT" (
    /- 3161 -/ writeIdentifiable_ARPackage.app <|
    /- 3162 -/ .prim k!"TIMEOUT" .lit k!"timeout" <|
    /- 3163 -/ .prim k!"TRIGGER" .ref k!"triggerRef" <|
    .nil) <|
  .nil

/-- `writeRunnableEntityWrittenLocalVariable`, `writer/arxml_writer.py:2934-2939` -/
def writeRunnableEntityWrittenLocalVariable_RunnableEntity : WB :=
  /- 2937 -/ .wrap (.any [(k!"writtenLocalVariables", [])]) k!"WRITTEN-LOCAL-VARIABLES" (
    /- 2939 -/ .each k!"writtenLocalVariables" [] .plain [⟨[], [], k!"writeVariableAccess_VariableAccess"⟩] .skip <|
    .nil) <|
  .nil

/-- `writeRunnableEntity`, `writer/arxml_writer.py:3176-3196` -/
def writeRunnableEntity_RunnableEntity : WB :=
  /- 3178 -/ .wrap .always k!"RUNNABLE-ENTITY" (
    /- 3179 -/ writeExecutableEntity_ExecutableEntity.app <|
    /- 3180 -/ writeRunnableEntityArguments_RunnableEntity.app <|
    /- 3181 -/ writeRunnableEntityAsynchronousServerCallResultPoint_RunnableEntity.app <|
    /- 3182 -/ .prim k!"CAN-BE-INVOKED-CONCURRENTLY" .lit k!"canBeInvokedConcurrently" <|
    /- 3183 -/ writeRunnableEntityDataReadAccesses_RunnableEntity.app <|
    /- 3184 -/ writeRunnableEntityDataReceivePointByArguments_RunnableEntity.app <|
    /- 3185 -/ writeRunnableEntityDataReceivePointByValues_RunnableEntity.app <|
    /- 3186 -/ writeRunnableEntityDataSendPoints_RunnableEntity.app <|
    /- 3187 -/ writeRunnableEntityDataWriteAccesses_RunnableEntity.app <|
    /- 3188 -/ writeRunnableEntityModeAccessPoints_RunnableEntity.app <|
    /- 3189 -/ writeRunnableEntityModeSwitchPoints_RunnableEntity.app <|
    /- 3190 -/ writeRunnableEntityExternalTriggeringPoints_RunnableEntity.app <|
    /- 3191 -/ writeRunnableEntityParameterAccesses_RunnableEntity.app <|
    /- 3192 -/ writeRunnableEntityReadLocalVariables_RunnableEntity.app <|
    /- 3193 -/ writeRunnableEntityServerCallPoints_RunnableEntity.app <|
    /- 3194 -/ .prim k!"SYMBOL" .lit k!"symbol" <|
    /- 3195 -/ writeRunnableEntityWaitPoints_RunnableEntity.app <|
    /- 3196 -/ writeRunnableEntityWrittenLocalVariable_RunnableEntity.app <|
    .nil) <|
  .nil

/-- `writeSdgCaption`, `writer/arxml_writer.py:740-744` (the block at line 743) -/
def writeSdgCaption_Sdg_L743 : WB :=
  /- 743 -/ .wrap .always k!"SDG-CAPTION" (
    /- 744 -/ writeMultilanguageReferrable_ARPackage.app <|
    .nil) <|
  .nil

/-- `writeSecureCommunicationAuthenticationProps`, `writer/arxml_writer.py:8822-8825` -/
def writeSecureCommunicationAuthenticationProps_SecureCommunicationAuthenticationProps : WB :=
  /- 8823 -/ .wrap .always k!"SECURE-COMMUNICATION-AUTHENTICATION-PROPS" (
    /- 8824 -/ writeIdentifiable_ARPackage.app <|
    /- 8825 -/ .prim k!"AUTH-INFO-TX-LENGTH" .numerical k!"authInfoTxLength" <|
    .nil) <|
  .nil

/-- `writeSecureCommunicationFreshnessProps`, `writer/arxml_writer.py:8837-8844` -/
def writeSecureCommunicationFreshnessProps_SecureCommunicationFreshnessProps : WB :=
  /- 8838 -/ .wrap .always k!"SECURE-COMMUNICATION-FRESHNESS-PROPS" (
    /- 8839 -/ writeIdentifiable_ARPackage.app <|
    /- 8840 -/ .prim k!"FRESHNESS-COUNTER-SYNC-ATTEMPTS" .numerical k!"freshnessCounterSyncAttempts" <|
    /- 8841 -/ .prim k!"FRESHNESS-TIMESTAMP-TIME-PERIOD-FACTOR" .numerical k!"freshnessTimestampTimePeriodFactor" <|
    /- 8842 -/ .prim k!"FRESHNESS-VALUE-LENGTH" .numerical k!"freshnessValueLength" <|
    /- 8843 -/ .prim k!"FRESHNESS-VALUE-TX-LENGTH" .numerical k!"freshnessValueTxLength" <|
    /- 8844 -/ .prim k!"USE-FRESHNESS-TIMESTAMP" .lit k!"useFreshnessTimestamp" <|
    .nil) <|
  .nil

/-- `writeSecureCommunicationPropsSetAuthenticationProps`, `writer/arxml_writer.py:8827-8835` -/
def writeSecureCommunicationPropsSetAuthenticationProps_SecureCommunicationPropsSet : WB :=
  /- 8830 -/ .wrap (.any [(k!"authenticationProps", [])]) k!"AUTHENTICATION-PROPSS" (
    /- 8833 -/ .each k!"authenticationProps" [] .plain [⟨[(false, [k!"SecureCommunicationAuthenticationProps"])], [], k!"writeSecureCommunicationAuthenticationProps_SecureCommunicationAuthenticationProps"⟩] .unsupported <|
    .nil) <|
  .nil

/-- `writeSecureCommunicationPropsSetFreshnessProps`, `writer/arxml_writer.py:8846-8854` -/
def writeSecureCommunicationPropsSetFreshnessProps_SecureCommunicationPropsSet : WB :=
  /- 8849 -/ .wrap (.any [(k!"freshnessProps", [])]) k!"FRESHNESS-PROPSS" (
    /- 8852 -/ .each k!"freshnessProps" [] .plain [⟨[(false, [k!"SecureCommunicationFreshnessProps"])], [], k!"writeSecureCommunicationFreshnessProps_SecureCommunicationFreshnessProps"⟩] .unsupported <|
    .nil) <|
  .nil

/-- `writeSecureCommunicationPropsSet`, `writer/arxml_writer.py:8856-8861` -/
def writeSecureCommunicationPropsSet_SecureCommunicationPropsSet : WB :=
  /- 8858 -/ .wrap .always k!"SECURE-COMMUNICATION-PROPS-SET" (
    /- 8859 -/ writeIdentifiable_ARPackage.app <|
    /- 8860 -/ writeSecureCommunicationPropsSetAuthenticationProps_SecureCommunicationPropsSet.app <|
    /- 8861 -/ writeSecureCommunicationPropsSetFreshnessProps_SecureCommunicationPropsSet.app <|
    .nil) <|
  .nil

/-- `writeSecureOnBoardCommunicationNeeds`, `writer/arxml_writer.py:3621-3625` -/
def writeSecureOnBoardCommunicationNeeds_SecureOnBoardCommunicationNeeds : WB :=
  /- 3622 -/ .wrap .always k!"SECURE-ON-BOARD-COMMUNICATION-NEEDS" (
    /- 3624 -/ writeARElement_System.app <|
    /- 3625 -/ .prim k!"VERIFICATION-STATUS-INDICATION-MODE" .lit k!"verificationStatusIndicationMode" <|
    .nil) <|
  .nil

/-- `writeSecuredIPdu`, `writer/arxml_writer.py:6015-6023` -/
def writeSecuredIPdu_SecuredIPdu : WB :=
  /- 6017 -/ .wrap .always k!"SECURED-I-PDU" (
    /- 6018 -/ writeIPdu_IPdu.app <|
    /- 6019 -/ .prim k!"AUTHENTICATION-PROPS-REF" .ref k!"authenticationPropsRef" <|
    /- 6020 -/ .prim k!"FRESHNESS-PROPS-REF" .ref k!"freshnessPropsRef" <|
    /- 6021 -/ .prim k!"PAYLOAD-REF" .ref k!"payloadRef" <|
    /- 6022 -/ .each k!"secureCommunicationProps" [] .plain [⟨[], [], k!"setSecureCommunicationProps_SECURE_COMMUNICATION_PROPS_SecureCommunicationProps"⟩] .skip <|
    /- 6023 -/ .prim k!"USE-AS-CRYPTOGRAPHIC-I-PDU" .lit k!"useAsCryptographicIPdu" <|
    .nil) <|
  .nil

/-- `writeSegmentPosition`, `writer/arxml_writer.py:8723-8728` -/
def writeSegmentPosition_SegmentPosition : WB :=
  /- 8725 -/ .wrap .always k!"SEGMENT-POSITION" (
    /- 8726 -/ .prim k!"SEGMENT-BYTE-ORDER" .lit k!"segmentByteOrder" <|
    /- 8727 -/ .prim k!"SEGMENT-LENGTH" .numerical k!"segmentLength" <|
    /- 8728 -/ .prim k!"SEGMENT-POSITION" .numerical k!"segmentPosition" <|
    .nil) <|
  .nil

/-- `writeSenderRecArrayTypeMappingRecordElementMapping`, `writer/arxml_writer.py:7882-7890` -/
def writeSenderRecArrayTypeMappingRecordElementMapping_SenderRecRecordTypeMapping : WB :=
  /- 7885 -/ .wrap (.any [(k!"recordElementMappings", [])]) k!"RECORD-ELEMENT-MAPPINGS" (
    /- 7888 -/ .each k!"recordElementMappings" [] .plain [⟨[(false, [k!"SenderRecRecordElementMapping"])], [], k!"writeSenderRecRecordElementMapping_SenderRecRecordElementMapping"⟩] .unsupported <|
    .nil) <|
  .nil

/-- `writeSenderRecRecordElementMapping`, `writer/arxml_writer.py:7874-7880` -/
def writeSenderRecRecordElementMapping_SenderRecRecordElementMapping : WB :=
  /- 7876 -/ .wrap .always k!"SENDER-REC-RECORD-ELEMENT-MAPPING" (
    /- 7877 -/ .attr k!"T" .raw k!"timestamp" <|
    /- 7877 -/ .attr k!"UUID" .raw k!"uuid" <|
    /- 7878 -/ .prim k!"APPLICATION-RECORD-ELEMENT-REF" .ref k!"applicationRecordElementRef" <|
    /- 7879 -/ .prim k!"IMPLEMENTATION-RECORD-ELEMENT-REF" .ref k!"implementationRecordElementRef" <|
    /- 7880 -/ .prim k!"SYSTEM-SIGNAL-REF" .ref k!"systemSignalRef" <|
    .nil) <|
  .nil

/-- `writeSenderRecRecordTypeMapping`, `writer/arxml_writer.py:7892-7896` -/
def writeSenderRecRecordTypeMapping_SenderRecRecordTypeMapping : WB :=
  /- 7894 -/ .wrap .always k!"SENDER-REC-RECORD-TYPE-MAPPING" (
    /- 7895 -/ writeCommunicationCycle_CommunicationCycle.app <|
    /- 7896 -/ writeSenderRecArrayTypeMappingRecordElementMapping_SenderRecRecordTypeMapping.app <|
    .nil) <|
  .nil

/-- `writeSenderReceiverAnnotation`, `writer/arxml_writer.py:1461-1466` -/
def writeSenderReceiverAnnotation_SenderReceiverAnnotation : WB :=
  /- 1462 -/ .wrap .always k!"SENDER-RECEIVER-ANNOTATION" (
    /- 1463 -/ .prim k!"COMPUTED" .lit k!"computed" <|
    /- 1464 -/ .prim k!"DATA-ELEMENT-REF" .ref k!"dataElementRef" <|
    /- 1465 -/ .prim k!"LIMIT-KIND" .lit k!"limitKind" <|
    /- 1466 -/ .prim k!"PROCESSING-KIND" .lit k!"processingKind" <|
    .nil) <|
  .nil

/-- `writeSenderReceiverInterfaceDataElements`, `writer/arxml_writer.py:4658-4666` -/
def writeSenderReceiverInterfaceDataElements_SenderReceiverInterface : WB :=
  /- 4661 -/ .wrap (.any [(k!"elements", [k!"VariableDataPrototype"])]) k!"DATA-ELEMENTS" (
    /- 4664 -/ .each k!"elements" [k!"VariableDataPrototype"] .plain [⟨[(false, [k!"VariableDataPrototype"])], [], k!"writeVariableDataPrototype_VariableDataPrototype"⟩] .unsupported <|
    .nil) <|
  .nil

/-- `writeSenderReceiverInterfaceInvalidationPolicies`, `writer/arxml_writer.py:4668-4675` -/
def writeSenderReceiverInterfaceInvalidationPolicies_SenderReceiverInterface : WB :=
  /- 4671 -/ .wrap (.any [(k!"invalidationPolicies", [])]) k!"INVALIDATION-POLICYS" (
    /- 4673 -/ .each k!"invalidationPolicies" [] .plain [⟨[], [], k!"writeSenderReceiverInterfaceInvalidationPolicies_SenderReceiverInterface_L4673"⟩] .skip <|
    .nil) <|
  .nil

/-- `writeSenderReceiverInterfaceInvalidationPolicies`, `writer/arxml_writer.py:4668-4675` (the block at line 4673) -/
def writeSenderReceiverInterfaceInvalidationPolicies_SenderReceiverInterface_L4673 : WB :=
  /- 4673 -/ .wrap .always k!"INVALIDATION-POLICY" (
    /- 4674 -/ .prim k!"DATA-ELEMENT-REF" .ref k!"dataElementRef" <|
    /- 4675 -/ .prim k!"HANDLE-INVALID" .lit k!"handleInvalid" <|
    .nil) <|
  .nil

/-- `writeSenderReceiverInterface`, `writer/arxml_writer.py:4677-4683` -/
def writeSenderReceiverInterface_SenderReceiverInterface : WB :=
  /- 4679 -/ .wrap .always k!"SENDER-RECEIVER-INTERFACE" (
    /- 4680 -/ writeIdentifiable_ARPackage.app <|
    /- 4681 -/ .prim k!"IS-SERVICE" .lit k!"isService" <|
    /- 4682 -/ writeSenderReceiverInterfaceDataElements_SenderReceiverInterface.app <|
    /- 4683 -/ writeSenderReceiverInterfaceInvalidationPolicies_SenderReceiverInterface.app <|
    .nil) <|
  .nil

/-- `writeSenderReceiverToSignalGroupMappingTypeMapping`, `writer/arxml_writer.py:7898-7905` -/
def writeSenderReceiverToSignalGroupMappingTypeMapping_SenderReceiverToSignalGroupMapping : WB :=
  /- 7901 -/ .wrap (.any [(k!"typeMapping", [])]) k!"TYPE-MAPPING" (
    /- 7903 -/ .each k!"typeMapping" [] .plain [⟨[(false, [k!"SenderRecRecordTypeMapping"])], [], k!"writeSenderRecRecordTypeMapping_SenderRecRecordTypeMapping"⟩] .unsupported <|
    .nil) <|
  .nil

/-- `writeSenderReceiverToSignalGroupMapping`, `writer/arxml_writer.py:7907-7911` -/
def writeSenderReceiverToSignalGroupMapping_SenderReceiverToSignalGroupMapping : WB :=
  /- 7908 -/ .wrap .always k!"SENDER-RECEIVER-TO-SIGNAL-GROUP-MAPPING" (
    /- 7909 -/ .each k!"dataElementIRef" [] .plain [⟨[], [], k!"setVariableDataPrototypeInSystemInstanceRef_DATA_ELEMENT_IREF_VariableDataPrototypeInSystemInstanceRef"⟩] .skip <|
    /- 7910 -/ .prim k!"SIGNAL-GROUP-REF" .ref k!"signalGroupRef" <|
    /- 7911 -/ writeSenderReceiverToSignalGroupMappingTypeMapping_SenderReceiverToSignalGroupMapping.app <|
    .nil) <|
  .nil

/-- `writeSenderReceiverToSignalMapping`, `writer/arxml_writer.py:7865-7869` -/
def writeSenderReceiverToSignalMapping_SenderReceiverToSignalMapping : WB :=
  /- 7866 -/ .wrap .always k!"SENDER-RECEIVER-TO-SIGNAL-MAPPING" (
    /- 7867 -/ .prim k!"COMMUNICATION-DIRECTION" .lit k!"communicationDirection" <|
    /- 7868 -/ .each k!"dataElementIRef" [] .plain [⟨[], [], k!"setVariableDataPrototypeInSystemInstanceRef_DATA_ELEMENT_IREF_VariableDataPrototypeInSystemInstanceRef"⟩] .skip <|
    /- 7869 -/ .prim k!"SYSTEM-SIGNAL-REF" .ref k!"systemSignalRef" <|
    .nil) <|
  .nil

/-- `writeSensorActuatorSwComponentType`, `writer/arxml_writer.py:5591-5595` -/
def writeSensorActuatorSwComponentType_SensorActuatorSwComponentType : WB :=
  /- 5593 -/ .wrap .always k!"SENSOR-ACTUATOR-SW-COMPONENT-TYPE" (
    /- 5594 -/ writeAtomicSwComponentType_AtomicSwComponentType.app <|
    /- 5595 -/ .prim k!"SENSOR-ACTUATOR-REF" .ref k!"sensorActuatorRef" <|
    .nil) <|
  .nil

/-- `writeServerComSpecTransformationComSpecProps`, `writer/arxml_writer.py:1073-1074` -/
def writeServerComSpecTransformationComSpecProps_ServerComSpec : WB :=
  /- 1301 -/ .wrap (.any [(k!"transformationComSpecProps", [])]) k!"TRANSFORMATION-COM-SPEC-PROPSS" (
    /- 1304 -/ .each k!"transformationComSpecProps" [] .plain [⟨[(false, [k!"UserDefinedTransformationComSpecProps"])], [], k!"writeUserDefinedTransformationComSpecProps_UserDefinedTransformationComSpecProps"⟩,
      ⟨[(false, [k!"EndToEndTransformationComSpecProps"])], [k!"UserDefinedTransformationComSpecProps"], k!"writeEndToEndTransformationComSpecProps_EndToEndTransformationComSpecProps"⟩] .unsupported <|
    .nil) <|
  .nil

/-- `writeServerComSpec`, `writer/arxml_writer.py:1076-1081` -/
def writeServerComSpec_ServerComSpec : WB :=
  /- 1077 -/ .wrap .always k!"SERVER-COM-SPEC" (
    /- 1078 -/ .attr k!"T" .raw k!"timestamp" <|
    /- 1078 -/ .attr k!"UUID" .raw k!"uuid" <|
    /- 1079 -/ .prim k!"OPERATION-REF" .ref k!"operationRef" <|
    /- 1080 -/ .prim k!"QUEUE-LENGTH" .numerical k!"queueLength" <|
    /- 1081 -/ writeServerComSpecTransformationComSpecProps_ServerComSpec.app <|
    .nil) <|
  .nil

/-- `writeServiceDependency`, `writer/arxml_writer.py:3345-3348` -/
def writeServiceDependency_ServiceDependency : WB :=
  /- 3346 -/ writeIdentifiable_ARPackage.app <|
  /- 3347 -/ writeServiceDependencyAssignedDataType_ServiceDependency.app <|
  /- 3348 -/ writeSymbolicNameProps_ServiceDependency.app <|
  .nil

/-- `writeServiceProxySwComponentType`, `writer/arxml_writer.py:5597-5600` -/
def writeServiceProxySwComponentType_ServiceProxySwComponentType : WB :=
  /- 5599 -/ .wrap .always k!"SERVICE-PROXY-SW-COMPONENT-TYPE" (
    /- 5600 -/ writeAtomicSwComponentType_AtomicSwComponentType.app <|
    .nil) <|
  .nil

/-- `writeServiceSwComponentType`, `writer/arxml_writer.py:5586-5589` -/
def writeServiceSwComponentType_ServiceSwComponentType : WB :=
  /- 5588 -/ .wrap .always k!"SERVICE-SW-COMPONENT-TYPE" (
    /- 5589 -/ writeAtomicSwComponentType_AtomicSwComponentType.app <|
    .nil) <|
  .nil

/-- `writeSignalServiceTranslationElementProps`, `writer/arxml_writer.py:8620-8625` -/
def writeSignalServiceTranslationElementProps_SignalServiceTranslationElementProps : WB :=
  /- 8622 -/ .wrap .always k!"SIGNAL-SERVICE-TRANSLATION-ELEMENT-PROPS" (
    /- 8623 -/ writeIdentifiable_ARPackage.app <|
    /- 8624 -/ .each k!"filter" [] .plain [⟨[], [], k!"setDataFilter_FILTER_DataFilter"⟩] .skip <|
    /- 8625 -/ .prim k!"TRANSMISSION-TRIGGER" .lit k!"transmissionTrigger" <|
    .nil) <|
  .nil

end Verif.Gen.W
