import Verif.Gen.Write4
-- generated by tools/gen_codec.py; do not edit
namespace Verif.Gen.W
open Verif Verif.Model

/-- `writeEcucEnumerationLiteralDef`, `writer/arxml_writer.py:7156-7160` -/
def writeEcucEnumerationLiteralDef_EcucEnumerationLiteralDef : WB :=
  /- 7158 -/ .wrap .always k!"ECUC-ENUMERATION-LITERAL-DEF" (
    /- 7159 -/ writeIdentifiable_ARPackage.app <|
    /- 7160 -/ .prim k!"ORIGIN" .lit k!"origin" <|
    .nil) <|
  .nil

/-- `writeEcucEnumerationParamDefLiterals`, `writer/arxml_writer.py:7162-7170` -/
def writeEcucEnumerationParamDefLiterals_EcucEnumerationParamDef : WB :=
  /- 7165 -/ .wrap (.any [(k!"literals", [])]) k!"LITERALS" (
    /- 7168 -/ .each k!"literals" [] .plain [⟨[(false, [k!"EcucEnumerationLiteralDef"])], [], k!"writeEcucEnumerationLiteralDef_EcucEnumerationLiteralDef"⟩] .unsupported <|
    .nil) <|
  .nil

/-- `writeEcucEnumerationParamDef`, `writer/arxml_writer.py:7172-7177` -/
def writeEcucEnumerationParamDef_EcucEnumerationParamDef : WB :=
  /- 7174 -/ .wrap .always k!"ECUC-ENUMERATION-PARAM-DEF" (
    /- 7175 -/ writeEcucParameterDef_EcucParameterDef.app <|
    /- 7176 -/ .prim k!"DEFAULT-VALUE" .lit k!"defaultValue" <|
    /- 7177 -/ writeEcucEnumerationParamDefLiterals_EcucEnumerationParamDef.app <|
    .nil) <|
  .nil

/-- `writeEcucFloatParamDef`, `writer/arxml_writer.py:7148-7154` -/
def writeEcucFloatParamDef_EcucFloatParamDef : WB :=
  /- 7150 -/ .wrap .always k!"ECUC-FLOAT-PARAM-DEF" (
    /- 7151 -/ writeEcucParameterDef_EcucParameterDef.app <|
    /- 7152 -/ .prim k!"DEFAULT-VALUE" .lit k!"defaultValue" <|
    /- 7153 -/ .prim k!"MAX" .limit k!"max" <|
    /- 7154 -/ .prim k!"MIN" .limit k!"min" <|
    .nil) <|
  .nil

/-- `writeEcucFunctionNameDef`, `writer/arxml_writer.py:7179-7185` -/
def writeEcucFunctionNameDef_EcucFunctionNameDef : WB :=
  /- 7181 -/ .wrap .always k!"ECUC-FUNCTION-NAME-DEF" (
    /- 7182 -/ writeEcucParameterDef_EcucParameterDef.app <|
    /- 7183 -/ .wrap .always k!"ECUC-FUNCTION-NAME-DEF-VARIANTS" (
      /- 7184 -/ .wrap .always k!"ECUC-FUNCTION-NAME-DEF-CONDITIONAL" (
        /- 7185 -/ writeEcucAbstractStringParamDef_EcucAbstractStringParamDef.app <|
        .nil) <|
      .nil) <|
    .nil) <|
  .nil

/-- `writeEcucInstanceReferenceDef`, `writer/arxml_writer.py:7275-7280` -/
def writeEcucInstanceReferenceDef_EcucInstanceReferenceDef : WB :=
  /- 7277 -/ .wrap .always k!"ECUC-INSTANCE-REFERENCE-DEF" (
    /- 7278 -/ writeEcucAbstractExternalReferenceDef_EcucAbstractExternalReferenceDef.app <|
    /- 7279 -/ .prim k!"DESTINATION-CONTEXT" .lit k!"destinationContext" <|
    /- 7280 -/ .prim k!"DESTINATION-TYPE" .lit k!"destinationType" <|
    .nil) <|
  .nil

/-- `writeEcucIntegerParamDef`, `writer/arxml_writer.py:7140-7146` -/
def writeEcucIntegerParamDef_EcucIntegerParamDef : WB :=
  /- 7142 -/ .wrap .always k!"ECUC-INTEGER-PARAM-DEF" (
    /- 7143 -/ writeEcucParameterDef_EcucParameterDef.app <|
    /- 7144 -/ .prim k!"DEFAULT-VALUE" .numerical k!"defaultValue" <|
    /- 7145 -/ .prim k!"MAX" .numerical k!"max" <|
    /- 7146 -/ .prim k!"MIN" .numerical k!"min" <|
    .nil) <|
  .nil

/-- `writeEcucModuleConfigurationValuesContainers`, `writer/arxml_writer.py:8350-8358` -/
def writeEcucModuleConfigurationValuesContainers_EcucModuleConfigurationValues : WB :=
  /- 8353 -/ .wrap (.any [(k!"elements", [k!"EcucContainerValue"])]) k!"CONTAINERS" (
    /- 8356 -/ .each k!"elements" [k!"EcucContainerValue"] .sorted [⟨[(false, [k!"EcucContainerValue"])], [], k!"writeEcucContainValue_EcucContainerValue"⟩] .unsupported <|
    .nil) <|
  .nil

/-- `writeEcucModuleConfigurationValues`, `writer/arxml_writer.py:8360-8369` -/
def writeEcucModuleConfigurationValues_EcucModuleConfigurationValues : WB :=
  /- 8362 -/ .wrap .always k!"ECUC-MODULE-CONFIGURATION-VALUES" (
    /- 8363 -/ writeIdentifiable_ARPackage.app <|
    /- 8364 -/ .prim k!"DEFINITION-REF" .ref k!"definitionRef" <|
    /- 8365 -/ .prim k!"ECUC-DEF-EDITION" .lit k!"ecucDefEdition" <|
    /- 8366 -/ .prim k!"IMPLEMENTATION-CONFIG-VARIANT" .lit k!"implementationConfigVariant" <|
    /- 8367 -/ .prim k!"MODULE-DESCRIPTION-REF" .ref k!"moduleDescriptionRef" <|
    /- 8368 -/ .prim k!"POST-BUILD-VARIANT-USED" .lit k!"postBuildVariantUsed" <|
    /- 8369 -/ writeEcucModuleConfigurationValuesContainers_EcucModuleConfigurationValues.app <|
    .nil) <|
  .nil

/-- `writeEcucModuleDefContainers`, `writer/arxml_writer.py:7334-7343` -/
def writeEcucModuleDefContainers_EcucModuleDef : WB :=
  /- 7336 -/ .wrap .always k!"CONTAINERS" (
    /- 7339 -/ .each k!"containers" [] .plain [⟨[(false, [k!"EcucParamConfContainerDef"])], [], k!"writeEcucParamConfContainerDef_EcucParamConfContainerDef"⟩,
      ⟨[(false, [k!"EcucChoiceContainerDef"])], [k!"EcucParamConfContainerDef"], k!"writeEcucChoiceContainerDef_EcucChoiceContainerDef"⟩] .unsupported <|
    .nil) <|
  .nil

/-- `writeEcucModuleDefSupportedConfigVariants`, `writer/arxml_writer.py:6997-7002` -/
def writeEcucModuleDefSupportedConfigVariants_EcucModuleDef : WB :=
  /- 7000 -/ .wrap (.any [(k!"supportedConfigVariants", [])]) k!"SUPPORTED-CONFIG-VARIANTS" (
    /- 7002 -/ .prim k!"SUPPORTED-CONFIG-VARIANT" .lit k!"supportedConfigVariants" <|
    .nil) <|
  .nil

/-- `writeEcucModuleDef`, `writer/arxml_writer.py:7345-7354` -/
def writeEcucModuleDef_EcucModuleDef : WB :=
  /- 7348 -/ .wrap .always k!"ECUC-MODULE-DEF" (
    /- 7349 -/ writeEcucDefinitionElement_EcucDefinitionElement.app <|
    /- 7350 -/ .prim k!"API-SERVICE-PREFIX" .lit k!"apiServicePrefix" <|
    /- 7351 -/ .prim k!"POST-BUILD-VARIANT-SUPPORT" .lit k!"postBuildVariantSupport" <|
    /- 7352 -/ .prim k!"REFINED-MODULE-DEF-REF" .ref k!"refinedModuleDefRef" <|
    /- 7353 -/ writeEcucModuleDefSupportedConfigVariants_EcucModuleDef.app <|
    /- 7354 -/ writeEcucModuleDefContainers_EcucModuleDef.app <|
    .nil) <|
  .nil

/-- `writeEcucMultilineStringParamDef`, `writer/arxml_writer.py:7187-7193` -/
def writeEcucMultilineStringParamDef_EcucMultilineStringParamDef : WB :=
  /- 7189 -/ .wrap .always k!"ECUC-MULTILINE-STRING-PARAM-DEF" (
    /- 7190 -/ writeEcucParameterDef_EcucParameterDef.app <|
    /- 7191 -/ .wrap .always k!"ECUC-MULTILINE-STRING-PARAM-DEF-VARIANTS" (
      /- 7192 -/ .wrap .always k!"ECUC-MULTILINE-STRING-PARAM-DEF-CONDITIONAL" (
        /- 7193 -/ writeEcucAbstractStringParamDef_EcucAbstractStringParamDef.app <|
        .nil) <|
      .nil) <|
    .nil) <|
  .nil

/-- `writeEcucMultiplicityConfigurationClass`, `writer/arxml_writer.py:7009-7012` -/
def writeEcucMultiplicityConfigurationClass_EcucMultiplicityConfigurationClass : WB :=
  /- 7011 -/ .wrap .always k!"ECUC-MULTIPLICITY-CONFIGURATION-CLASS" (
    /- 7012 -/ writeEcucAbstractConfigurationClass_EcucAbstractConfigurationClass.app <|
    .nil) <|
  .nil

/-- `writeEcucParamConfContainerDef`, `writer/arxml_writer.py:7310-7316` -/
def writeEcucParamConfContainerDef_EcucParamConfContainerDef : WB :=
  /- 7312 -/ .wrap .always k!"ECUC-PARAM-CONF-CONTAINER-DEF" (
    /- 7313 -/ writeEcucContainerDef_EcucContainerDef.app <|
    /- 7314 -/ writeEcucContainerDefParameters_EcucParamConfContainerDef.app <|
    /- 7315 -/ writeEcucContainerDefReferences_EcucContainerDef.app <|
    /- 7316 -/ writeEcucContainerDefSubContainers_EcucParamConfContainerDef.app <|
    .nil) <|
  .nil

/-- `writeEcucParameterDerivationFormula`, `writer/arxml_writer.py:7065-7070` -/
def writeEcucParameterDerivationFormula_EcucParameterDerivationFormula : WB :=
  /- 7068 -/ .wrap .always k!"CALCULATION-FORMULA" (
    /- 7069 -/ .prim k!"ECUC-QUERY-REF" .ref k!"ecucQueryRef" <|
    /- 7070 -/ .prim k!"ECUC-QUERY-STRING-REF" .ref k!"ecucQueryStringRef" <|
    .nil) <|
  .nil

/-- `writeEcucQuery`, `writer/arxml_writer.py:7111-7117` (the block at line 7115) -/
def writeEcucQuery_EcucQuery_L7115 : WB :=
  /- 7115 -/ .wrap .always k!"ECUC-QUERY-EXPRESSION" (
    /- 7116 -/ .prim k!"CONFIG-ELEMENT-DEF-GLOBAL-REF" .ref k!"configElementDefGlobalRef" <|
    /- 7117 -/ .prim k!"CONFIG-ELEMENT-DEF-LOCAL-REF" .ref k!"configElementDefLocalRef" <|
    .nil) <|
  .nil

/-- `writeEcucReferenceDef`, `writer/arxml_writer.py:7259-7263` -/
def writeEcucReferenceDef_EcucReferenceDef : WB :=
  /- 7261 -/ .wrap .always k!"ECUC-REFERENCE-DEF" (
    /- 7262 -/ writeEcucAbstractInternalReferenceDef_EcucAbstractInternalReferenceDef.app <|
    /- 7263 -/ .prim k!"DESTINATION-REF" .ref k!"destinationRef" <|
    .nil) <|
  .nil

/-- `writeEcucStringParamDef`, `writer/arxml_writer.py:7132-7138` -/
def writeEcucStringParamDef_EcucStringParamDef : WB :=
  /- 7134 -/ .wrap .always k!"ECUC-STRING-PARAM-DEF" (
    /- 7135 -/ writeEcucParameterDef_EcucParameterDef.app <|
    /- 7136 -/ .wrap .always k!"ECUC-STRING-PARAM-DEF-VARIANTS" (
      /- 7137 -/ .wrap .always k!"ECUC-STRING-PARAM-DEF-CONDITIONAL" (
        /- 7138 -/ writeEcucAbstractStringParamDef_EcucAbstractStringParamDef.app <|
        .nil) <|
      .nil) <|
    .nil) <|
  .nil

/-- `writeEcucSymbolicNameReferenceDef`, `writer/arxml_writer.py:7253-7257` -/
def writeEcucSymbolicNameReferenceDef_EcucSymbolicNameReferenceDef : WB :=
  /- 7255 -/ .wrap .always k!"ECUC-SYMBOLIC-NAME-REFERENCE-DEF" (
    /- 7256 -/ writeEcucAbstractInternalReferenceDef_EcucAbstractInternalReferenceDef.app <|
    /- 7257 -/ .prim k!"DESTINATION-REF" .ref k!"destinationRef" <|
    .nil) <|
  .nil

/-- `writeEcucValueConfigurationClass`, `writer/arxml_writer.py:7023-7026` -/
def writeEcucValueConfigurationClass_EcucValueConfigurationClass : WB :=
  /- 7025 -/ .wrap .always k!"ECUC-VALUE-CONFIGURATION-CLASS" (
    /- 7026 -/ writeEcucAbstractConfigurationClass_EcucAbstractConfigurationClass.app <|
    .nil) <|
  .nil

/-- `writeEndToEndProtectionEndToEndProtectionISignalIPdus`, `writer/arxml_writer.py:4616-4624` -/
def writeEndToEndProtectionEndToEndProtectionISignalIPdus_EndToEndProtection : WB :=
  /- 4619 -/ .wrap (.any [(k!"endToEndProtectionISignalIPdus", [])]) k!"END-TO-END-PROTECTION-I-SIGNAL-I-PDUS" (
    /- 4622 -/ .each k!"endToEndProtectionISignalIPdus" [] .plain [⟨[(false, [k!"EndToEndProtectionISignalIPdu"])], [], k!"writeEndToEndProtectionISignalIPdu_EndToEndProtectionISignalIPdu"⟩] .unsupported <|
    .nil) <|
  .nil

/-- `writeEndToEndProtectionEndToEndProtectionVariablePrototypes`, `writer/arxml_writer.py:4599-4607` -/
def writeEndToEndProtectionEndToEndProtectionVariablePrototypes_EndToEndProtection : WB :=
  /- 4602 -/ .wrap (.any [(k!"endToEndProtectionVariablePrototypes", [])]) k!"END-TO-END-PROTECTION-VARIABLE-PROTOTYPES" (
    /- 4605 -/ .each k!"endToEndProtectionVariablePrototypes" [] .plain [⟨[(false, [k!"EndToEndProtectionVariablePrototype"])], [], k!"writeEndToEndProtectionVariablePrototype_EndToEndProtectionVariablePrototype"⟩] .unsupported <|
    .nil) <|
  .nil

/-- `writeEndToEndProtectionISignalIPdu`, `writer/arxml_writer.py:4609-4614` -/
def writeEndToEndProtectionISignalIPdu_EndToEndProtectionISignalIPdu : WB :=
  /- 4611 -/ .wrap .always k!"END-TO-END-PROTECTION-I-SIGNAL-I-PDU" (
    /- 4612 -/ .prim k!"DATA-OFFSET" .numerical k!"dataOffset" <|
    /- 4613 -/ .prim k!"I-SIGNAL-GROUP-REF" .ref k!"iSignalGroupRef" <|
    /- 4614 -/ .prim k!"I-SIGNAL-I-PDU-REF" .ref k!"iSignalIPduRef" <|
    .nil) <|
  .nil

/-- `writeEndToEndProtections`, `writer/arxml_writer.py:4634-4640` -/
def writeEndToEndProtections_EndToEndProtectionSet : WB :=
  /- 4637 -/ .wrap (.any [(k!"elements", [k!"EndToEndProtection"])]) k!"END-TO-END-PROTECTIONS" (
    /- 4640 -/ .each k!"elements" [k!"EndToEndProtection"] .sorted [⟨[(false, [k!"EndToEndProtection"])], [], k!"writeEndToEndProtection_EndToEndProtection"⟩] .skip <|
    .nil) <|
  .nil

/-- `writeEndToEndProtectionSet`, `writer/arxml_writer.py:4642-4646` -/
def writeEndToEndProtectionSet_EndToEndProtectionSet : WB :=
  /- 4644 -/ .wrap .always k!"END-TO-END-PROTECTION-SET" (
    /- 4645 -/ writeIdentifiable_ARPackage.app <|
    /- 4646 -/ writeEndToEndProtections_EndToEndProtectionSet.app <|
    .nil) <|
  .nil

/-- `writeEndToEndProtectionVariablePrototype`, `writer/arxml_writer.py:4588-4597` -/
def writeEndToEndProtectionVariablePrototype_EndToEndProtectionVariablePrototype : WB :=
  /- 4590 -/ .wrap .always k!"END-TO-END-PROTECTION-VARIABLE-PROTOTYPE" (
    /- 4591 -/ .attr k!"T" .raw k!"timestamp" <|
    /- 4591 -/ .attr k!"UUID" .raw k!"uuid" <|
    /- 4594 -/ .wrap (.any [(k!"_receiverIRefs", [])]) k!"RECEIVER-IREFS" (
      /- 4596 -/ .each k!"_receiverIRefs" [] .plain [⟨[], [], k!"setVariableDataPrototypeInSystemInstanceRef_RECEIVER_IREF_VariableDataPrototypeInSystemInstanceRef"⟩] .skip <|
      /- 4597 -/ .each k!"senderIRef" [] .plain [⟨[], [], k!"setVariableDataPrototypeInSystemInstanceRef_SENDER_IREF_VariableDataPrototypeInSystemInstanceRef"⟩] .skip <|
      .nil) <|
    /- 4597 -/ .when (.none [(k!"_receiverIRefs", [])]) (
      /- 4597 -/ .each k!"senderIRef" [] .plain [⟨[], [], k!"setVariableDataPrototypeInSystemInstanceRef_SENDER_IREF_VariableDataPrototypeInSystemInstanceRef"⟩] .skip <|
      .nil) <|
    .nil) <|
  .nil

/-- `writeEndToEndProtection`, `writer/arxml_writer.py:4626-4632` -/
def writeEndToEndProtection_EndToEndProtection : WB :=
  /- 4628 -/ .wrap .always k!"END-TO-END-PROTECTION" (
    /- 4629 -/ writeIdentifiable_ARPackage.app <|
    /- 4630 -/ .each k!"endToEndProfile" [] .plain [⟨[], [], k!"setEndToEndDescription_END_TO_END_PROFILE_EndToEndDescription"⟩] .skip <|
    /- 4631 -/ writeEndToEndProtectionEndToEndProtectionISignalIPdus_EndToEndProtection.app <|
    /- 4632 -/ writeEndToEndProtectionEndToEndProtectionVariablePrototypes_EndToEndProtection.app <|
    .nil) <|
  .nil

/-- `writeEndToEndTransformationComSpecProps`, `writer/arxml_writer.py:1052-1071` -/
def writeEndToEndTransformationComSpecProps_EndToEndTransformationComSpecProps : WB :=
  /- 1054 -/ .wrap .always k!"END-TO-END-TRANSFORMATION-COM-SPEC-PROPS" (
    /- 1055 -/ writeCommunicationCycle_CommunicationCycle.app <|
    /- 1056 -/ .prim k!"CLEAR-FROM-VALID-TO-INVALID" .lit k!"clearFromValidToInvalid" <|
    /- 1057 -/ .prim k!"DISABLE-END-TO-END-CHECK" .lit k!"disableEndToEndCheck" <|
    /- 1058 -/ .prim k!"DISABLE-END-TO-END-STATE-MACHINE" .lit k!"disableEndToEndStateMachine" <|
    /- 1059 -/ .prim k!"E2E-PROFILE-COMPATIBILITY-PROPS-REF" .ref k!"e2eProfileCompatibilityPropsRef" <|
    /- 1060 -/ .prim k!"MAX-DELTA-COUNTER" .numerical k!"maxDeltaCounter" <|
    /- 1061 -/ .prim k!"MAX-ERROR-STATE-INIT" .numerical k!"maxErrorStateInit" <|
    /- 1062 -/ .prim k!"MAX-ERROR-STATE-INVALID" .numerical k!"maxErrorStateInvalid" <|
    /- 1063 -/ .prim k!"MAX-ERROR-STATE-VALID" .numerical k!"maxErrorStateValid" <|
    /- 1064 -/ .prim k!"MAX-NO-NEW-OR-REPEATED-DATA" .numerical k!"maxNoNewOrRepeatedData" <|
    /- 1065 -/ .prim k!"MIN-OK-STATE-INIT" .numerical k!"minOkStateInit" <|
    /- 1066 -/ .prim k!"MIN-OK-STATE-INVALID" .numerical k!"minOkStateInvalid" <|
    /- 1067 -/ .prim k!"MIN-OK-STATE-VALID" .numerical k!"minOkStateValid" <|
    /- 1068 -/ .prim k!"SYNC-COUNTER-INIT" .numerical k!"syncCounterInit" <|
    /- 1069 -/ .prim k!"WINDOW-SIZE-INIT" .numerical k!"windowSizeInit" <|
    /- 1070 -/ .prim k!"WINDOW-SIZE-INVALID" .numerical k!"windowSizeInvalid" <|
    /- 1071 -/ .prim k!"WINDOW-SIZE-VALID" .numerical k!"windowSizeValid" <|
    .nil) <|
  .nil

/-- `writeTransformationDescription`, `writer/arxml_writer.py:9248-9249` -/
def writeTransformationDescription_TransformationDescription : WB :=
  /- 9249 -/ writeDescribable_Describable.app <|
  .nil

/-- `writeEndToEndTransformationDescription`, `writer/arxml_writer.py:9251-9276` -/
def writeEndToEndTransformationDescription_EndToEndTransformationDescription : WB :=
  /- 9253 -/ .wrap .always k!"END-TO-END-TRANSFORMATION-DESCRIPTION" (
    /- 9254 -/ writeTransformationDescription_TransformationDescription.app <|
    /- 9255 -/ .prim k!"CLEAR-FROM-VALID-TO-INVALID" .lit k!"clearFromValidToInvalid" <|
    /- 9256 -/ .prim k!"COUNTER-OFFSET" .numerical k!"counterOffset" <|
    /- 9257 -/ .prim k!"CRC-OFFSET" .numerical k!"crcOffset" <|
    /- 9258 -/ .prim k!"DATA-ID-MODE" .lit k!"dataIdMode" <|
    /- 9259 -/ .prim k!"DATA-ID-NIBBLE-OFFSET" .numerical k!"dataIdNibbleOffset" <|
    /- 9260 -/ .prim k!"E-2-E-PROFILE-COMPATIBILITY-PROPS-REF" .ref k!"e2eProfileCompatibilityPropsRef" <|
    /- 9261 -/ .prim k!"MAX-DELTA-COUNTER" .numerical k!"maxDeltaCounter" <|
    /- 9262 -/ .prim k!"MAX-ERROR-STATE-INIT" .numerical k!"maxErrorStateInit" <|
    /- 9263 -/ .prim k!"MAX-ERROR-STATE-INVALID" .numerical k!"maxErrorStateInvalid" <|
    /- 9264 -/ .prim k!"MAX-ERROR-STATE-VALID" .numerical k!"maxErrorStateValid" <|
    /- 9265 -/ .prim k!"MAX-NO-NEW-OR-REPEATED-DATA" .numerical k!"maxNoNewOrRepeatedData" <|
    /- 9266 -/ .prim k!"MIN-OK-STATE-INIT" .numerical k!"minOkStateInit" <|
    /- 9267 -/ .prim k!"MIN-OK-STATE-INVALID" .numerical k!"minOkStateInvalid" <|
    /- 9268 -/ .prim k!"MIN-OK-STATE-VALID" .numerical k!"minOkStateValid" <|
    /- 9269 -/ .prim k!"OFFSET" .numerical k!"offset" <|
    /- 9270 -/ .prim k!"PROFILE-BEHAVIOR" .lit k!"profileBehavior" <|
    /- 9271 -/ .prim k!"PROFILE-NAME" .lit k!"profileName" <|
    /- 9272 -/ .prim k!"SYNC-COUNTER-INIT" .numerical k!"syncCounterInit" <|
    /- 9273 -/ .prim k!"UPPER-HEADER-BITS-TO-SHIFT" .numerical k!"upperHeaderBitsToShift" <|
    /- 9274 -/ .prim k!"WINDOW-SIZE-INIT" .numerical k!"windowSizeInit" <|
    /- 9275 -/ .prim k!"WINDOW-SIZE-INVALID" .numerical k!"windowSizeInvalid" <|
    /- 9276 -/ .prim k!"WINDOW-SIZE-VALID" .numerical k!"windowSizeValid" <|
    .nil) <|
  .nil

/-- `writeTransformationISignalProps`, `writer/arxml_writer.py:8467-8474` -/
def writeTransformationISignalProps_TransformationISignalProps : WB :=
  /- 8468 -/ writeDescribable_Describable.app <|
  /- 8469 -/ .prim k!"CS-ERROR-REACTION" .lit k!"csErrorReaction" <|
  /- 8472 -/ .wrap (.any [(k!"dataPrototypeTransformationProps", [])]) k!"DATA-PROTOTYPE-TRANSFORMATION-PROPSS" (
    /- 8474 -/ .each k!"dataPrototypeTransformationProps" [] .plain [⟨[], [], k!"writeDataPrototypeTransformationProps_DataPrototypeTransformationProps"⟩] .skip <|
    .nil) <|
  .nil

/-- `writeEndToEndTransformationISignalProps`, `writer/arxml_writer.py:8520-8528` -/
def writeEndToEndTransformationISignalProps_EndToEndTransformationISignalProps : WB :=
  /- 8522 -/ .wrap .always k!"END-TO-END-TRANSFORMATION-I-SIGNAL-PROPS" (
    /- 8523 -/ .wrap .always k!"END-TO-END-TRANSFORMATION-I-SIGNAL-PROPS-VARIANTS" (
      /- 8524 -/ .wrap .always k!"END-TO-END-TRANSFORMATION-I-SIGNAL-PROPS-CONDITIONAL" (
        /- 8525 -/ writeTransformationISignalProps_TransformationISignalProps.app <|
        /- 8526 -/ .prim k!"TRANSFORMER-REF" .ref k!"transformerRef" <|
        /- 8527 -/ writeEndToEndDescriptionDataIds_EndToEndDescription.app <|
        /- 8528 -/ .prim k!"DATA-LENGTH" .numerical k!"dataLength" <|
        .nil) <|
      .nil) <|
    .nil) <|
  .nil

/-- `writeErrorTracerNeeds`, `writer/arxml_writer.py:3793-3808` -/
def writeErrorTracerNeeds_ErrorTracerNeeds : WB :=
  /- 3795 -/ .wrap .always k!"ERROR-TRACER-NEEDS" (
    /- 3796 -/ writeARElement_System.app <|
    /- 3799 -/ .wrap (.any [(k!"tracedFailures", [])]) k!"TRACED-FAILURES" (
      /- 3802 -/ .each k!"tracedFailures" [] .plain [⟨[(false, [k!"DevelopmentError"])], [], k!"setDevelopmentError_DevelopmentError"⟩,
        ⟨[(false, [k!"RuntimeError"])], [k!"DevelopmentError"], k!"setRuntimeError_RuntimeError"⟩,
        ⟨[(false, [k!"TransientFault"])], [k!"DevelopmentError", k!"RuntimeError"], k!"setTransientFault_TransientFault"⟩] .unsupported <|
      .nil) <|
    .nil) <|
  .nil

/-- `writeEthernetClusterMacMulticastGroups`, `writer/arxml_writer.py:7455-7463` -/
def writeEthernetClusterMacMulticastGroups_EthernetCluster : WB :=
  /- 7458 -/ .wrap (.any [(k!"macMulticastGroups", [])]) k!"MAC-MULTICAST-GROUPS" (
    /- 7461 -/ .each k!"macMulticastGroups" [] .plain [⟨[(false, [k!"MacMulticastGroup"])], [], k!"writeMacMulticastGroup_MacMulticastGroup"⟩] .unsupported <|
    .nil) <|
  .nil

/-- `writeEthernetCluster`, `writer/arxml_writer.py:7465-7473` -/
def writeEthernetCluster_EthernetCluster : WB :=
  /- 7467 -/ .wrap .always k!"ETHERNET-CLUSTER" (
    /- 7468 -/ writeARElement_System.app <|
    /- 7470 -/ .wrap .always k!"ETHERNET-CLUSTER-VARIANTS" (
      /- 7471 -/ .wrap .always k!"ETHERNET-CLUSTER-CONDITIONAL" (
        /- 7472 -/ writeCommunicationCluster_CommunicationCluster.app <|
        /- 7473 -/ writeEthernetClusterMacMulticastGroups_EthernetCluster.app <|
        .nil) <|
      .nil) <|
    .nil) <|
  .nil

/-- `writeEthernetCommunicationControllerCouplingPorts`, `writer/arxml_writer.py:7706-7714` -/
def writeEthernetCommunicationControllerCouplingPorts_EthernetCommunicationController : WB :=
  /- 7709 -/ .wrap (.any [(k!"couplingPorts", [])]) k!"COUPLING-PORTS" (
    /- 7712 -/ .each k!"couplingPorts" [] .plain [⟨[(false, [k!"CouplingPort"])], [], k!"writeCouplingPort_CouplingPort"⟩] .unsupported <|
    .nil) <|
  .nil

/-- `writeEthernetCommunicationController`, `writer/arxml_writer.py:7716-7723` -/
def writeEthernetCommunicationController_EthernetCommunicationController : WB :=
  /- 7717 -/ .wrap .always k!"ETHERNET-COMMUNICATION-CONTROLLER" (
    /- 7719 -/ writeIdentifiable_ARPackage.app <|
    /- 7720 -/ .wrap .always k!"ETHERNET-COMMUNICATION-CONTROLLER-VARIANTS" (
      /- 7721 -/ .wrap .always k!"ETHERNET-COMMUNICATION-CONTROLLER-CONDITIONAL" (
        /- 7722 -/ writeCommunicationController_CommunicationController.app <|
        /- 7723 -/ writeEthernetCommunicationControllerCouplingPorts_EthernetCommunicationController.app <|
        .nil) <|
      .nil) <|
    .nil) <|
  .nil

/-- `writeEthernetPhysicalChannelVlan`, `writer/arxml_writer.py:6773-6778` -/
def writeEthernetPhysicalChannelVlan_EthernetPhysicalChannel : WB :=
  /- 6776 -/ .each k!"vlan" [] .plain [⟨[], [], k!"writeEthernetPhysicalChannelVlan_EthernetPhysicalChannel_L6776"⟩] .skip <|
  .nil

/-- `writeEthernetPhysicalChannelVlan`, `writer/arxml_writer.py:6773-6778` (the block at line 6776) -/
def writeEthernetPhysicalChannelVlan_EthernetPhysicalChannel_L6776 : WB :=
  /- 6776 -/ .wrap .always k!"VLAN" (
    /- 6777 -/ writeIdentifiable_ARPackage.app <|
    /- 6778 -/ .prim k!"VLAN-IDENTIFIER" .numerical k!"vlanIdentifier" <|
    .nil) <|
  .nil

/-- `writeEthernetPhysicalChannel`, `writer/arxml_writer.py:6780-6786` -/
def writeEthernetPhysicalChannel_EthernetPhysicalChannel : WB :=
  /- 6782 -/ .wrap .always k!"ETHERNET-PHYSICAL-CHANNEL" (
    /- 6783 -/ writePhysicalChannel_PhysicalChannel.app <|
    /- 6469 -/ .wrap (.any [(k!"networkEndpoints", [])]) k!"NETWORK-ENDPOINTS" (
      /- 6471 -/ .each k!"networkEndpoints" [] .plain [⟨[], [], k!"writeNetworkEndPoint_NetworkEndpoint"⟩] .skip <|
      .nil) <|
    /- 6785 -/ .each k!"soAdConfig" [] .plain [⟨[], [], k!"writeSoAdConfig_SO_AD_CONFIG_SoAdConfig"⟩] .skip <|
    /- 6786 -/ writeEthernetPhysicalChannelVlan_EthernetPhysicalChannel.app <|
    .nil) <|
  .nil

/-- `writeEthernetPriorityRegeneration`, `writer/arxml_writer.py:7659-7664` -/
def writeEthernetPriorityRegeneration_EthernetPriorityRegeneration : WB :=
  /- 7661 -/ .wrap .always k!"ETHERNET-PRIORITY-REGENERATION" (
    /- 7662 -/ writeReferrable_ARPackage.app <|
    /- 7663 -/ .prim k!"INGRESS-PRIORITY" .numerical k!"ingressPriority" <|
    /- 7664 -/ .prim k!"REGENERATED-PRIORITY" .numerical k!"regeneratedPriority" <|
    .nil) <|
  .nil

/-- `writeEventHandler`, `writer/arxml_writer.py:6647-6666` -/
def writeEventHandler_EventHandler : WB :=
  /- 6649 -/ .wrap .always k!"EVENT-HANDLER" (
    /- 6650 -/ writeIdentifiable_ARPackage.app <|
    /- 6651 -/ .prim k!"APPLICATION-ENDPOINT-REF" .ref k!"applicationEndpointRef" <|
    /- 6655 -/ .wrap (.any [(k!"consumedEventGroupRefs", [])]) k!"CONSUMED-EVENT-GROUP-REFS" (
      /- 6657 -/ .prim k!"CONSUMED-EVENT-GROUP-REF" .ref k!"consumedEventGroupRefs" <|
      .nil) <|
    /- 6659 -/ .prim k!"MULTICAST-THRESHOLD" .numerical k!"multicastThreshold" <|
    /- 6663 -/ .wrap (.any [(k!"routingGroupRefs", [])]) k!"ROUTING-GROUP-REFS" (
      /- 6665 -/ .prim k!"ROUTING-GROUP-REF" .ref k!"routingGroupRefs" <|
      .nil) <|
    /- 6666 -/ .each k!"sdServerConfig" [] .plain [⟨[], [], k!"setSdServerConfig_SD_SERVER_CONFIG_SdServerConfig"⟩] .skip <|
    .nil) <|
  .nil

/-- `writeExclusiveAreaNestingOrders`, `writer/arxml_writer.py:2674-2685` (the block at line 2679) -/
def writeExclusiveAreaNestingOrders_InternalBehavior_L2679 : WB :=
  /- 2679 -/ .wrap .always k!"EXCLUSIVE-AREA-NESTING-ORDER" (
    /- 2680 -/ writeReferrable_ARPackage.app <|
    /- 2683 -/ .wrap (.any [(k!"exclusiveAreaRefs", [])]) k!"EXCLUSIVE-AREA-REFS" (
      /- 2685 -/ .prim k!"EXCLUSIVE-AREA-REF" .ref k!"exclusiveAreaRefs" <|
      .nil) <|
    .nil) <|
  .nil

/-- `writeExclusiveAreas`, `writer/arxml_writer.py:2666-2672` (the block at line 2671) -/
def writeExclusiveAreas_InternalBehavior_L2671 : WB :=
  /- 2671 -/ .wrap .always k!"EXCLUSIVE-AREA" (
    /- 2672 -/ writeIdentifiable_ARPackage.app <|
    .nil) <|
  .nil

/-- `writeExecutionOrderConstraintOrderedElement`, `writer/arxml_writer.py:5710-5718` -/
def writeExecutionOrderConstraintOrderedElement_ExecutionOrderConstraint : WB :=
  /- 5713 -/ .wrap (.any [(k!"ordered_elements", [])]) k!"ORDERED-ELEMENTS" (
    /- 5716 -/ .each k!"ordered_elements" [] .plain [⟨[(false, [k!"EOCExecutableEntityRef"])], [], k!"writeEOCExecutableEntityRef_EOCExecutableEntityRef"⟩] .unsupported <|
    .nil) <|
  .nil

/-- `writeExecutionOrderConstraint`, `writer/arxml_writer.py:5720-5724` -/
def writeExecutionOrderConstraint_ExecutionOrderConstraint : WB :=
  /- 5722 -/ .wrap .always k!"EXECUTION-ORDER-CONSTRAINT" (
    /- 5723 -/ writeIdentifiable_ARPackage.app <|
    /- 5724 -/ writeExecutionOrderConstraintOrderedElement_ExecutionOrderConstraint.app <|
    .nil) <|
  .nil

/-- `writeExecutionTime`, `writer/arxml_writer.py:4082-4100` (the block at line 4097) -/
def writeExecutionTime_AnalyzedExecutionTime_L4097 : WB :=
  /- 4097 -/ .wrap .always k!"MEMORY-SECTION-LOCATION" (
    /- 4098 -/ .prim k!"PROVIDED-MEMORY-REF" .ref k!"providedMemoryRef" <|
    /- 4099 -/ .prim k!"SOFTWARE-MEMORY-SECTION-REF" .ref k!"softwareMemorySectionRef" <|
    .nil) <|
  .nil

/-- `writeFlatMapInstances`, `writer/arxml_writer.py:8055-8063` -/
def writeFlatMapInstances_FlatMap : WB :=
  /- 8058 -/ .wrap (.any [(k!"elements", [k!"FlatInstanceDescriptor"])]) k!"INSTANCES" (
    /- 8061 -/ .each k!"elements" [k!"FlatInstanceDescriptor"] .sorted [⟨[(false, [k!"FlatInstanceDescriptor"])], [], k!"setFlatInstanceDescriptor_FlatInstanceDescriptor"⟩] .unsupported <|
    .nil) <|
  .nil

/-- `writeFlatMap`, `writer/arxml_writer.py:8065-8069` -/
def writeFlatMap_FlatMap : WB :=
  /- 8067 -/ .wrap .always k!"FLAT-MAP" (
    /- 8068 -/ writeARElement_System.app <|
    /- 8069 -/ writeFlatMapInstances_FlatMap.app <|
    .nil) <|
  .nil

/-- `writeFlexrayAbsolutelyScheduledTimingCommunicationCycle`, `writer/arxml_writer.py:6266-6273` -/
def writeFlexrayAbsolutelyScheduledTimingCommunicationCycle_FlexrayAbsolutelyScheduledTiming : WB :=
  /- 6269 -/ .wrap (.any [(k!"communicationCycle", [])]) k!"COMMUNICATION-CYCLE" (
    /- 6271 -/ .each k!"communicationCycle" [] .plain [⟨[(false, [k!"CycleRepetition"])], [], k!"writeCycleRepetition_CycleRepetition"⟩] .unsupported <|
    .nil) <|
  .nil

/-- `writeFlexrayAbsolutelyScheduledTiming`, `writer/arxml_writer.py:6275-6280` -/
def writeFlexrayAbsolutelyScheduledTiming_FlexrayAbsolutelyScheduledTiming : WB :=
  /- 6277 -/ .wrap .always k!"FLEXRAY-ABSOLUTELY-SCHEDULED-TIMING" (
    /- 6278 -/ .attr k!"T" .raw k!"timestamp" <|
    /- 6278 -/ .attr k!"UUID" .raw k!"uuid" <|
    /- 6279 -/ writeFlexrayAbsolutelyScheduledTimingCommunicationCycle_FlexrayAbsolutelyScheduledTiming.app <|
    /- 6280 -/ .prim k!"SLOT-ID" .numerical k!"slotID" <|
    .nil) <|
  .nil

/-- `writeFlexrayCluster`, `writer/arxml_writer.py:6849-6893` -/
def writeFlexrayCluster_FlexrayCluster : WB :=
  /- 6852 -/ .wrap .always k!"FLEXRAY-CLUSTER" (
    /- 6853 -/ writeIdentifiable_ARPackage.app <|
    /- 6855 -/ .wrap .always k!"FLEXRAY-CLUSTER-VARIANTS" (
      /- 6856 -/ .wrap .always k!"FLEXRAY-CLUSTER-CONDITIONAL" (
        /- 6857 -/ writeCommunicationCluster_CommunicationCluster.app <|
        /- 6859 -/ .prim k!"ACTION-POINT-OFFSET" .numerical k!"actionPointOffset" <|
        /- 6860 -/ .prim k!"BIT" .lit k!"bit" <|
        /- 6861 -/ .prim k!"CAS-RX-LOW-MAX" .numerical k!"casRxLowMax" <|
        /- 6862 -/ .prim k!"COLD-START-ATTEMPTS" .numerical k!"coldStartAttempts" <|
        /- 6863 -/ .prim k!"CYCLE" .lit k!"cycle" <|
        /- 6864 -/ .prim k!"CYCLE-COUNT-MAX" .numerical k!"cycleCountMax" <|
        /- 6865 -/ .prim k!"DETECT-NIT-ERROR" .lit k!"detectNitError" <|
        /- 6866 -/ .prim k!"DYNAMIC-SLOT-IDLE-PHASE" .numerical k!"dynamicSlotIdlePhase" <|
        /- 6867 -/ .prim k!"IGNORE-AFTER-TX" .numerical k!"ignoreAfterTx" <|
        /- 6868 -/ .prim k!"LISTEN-NOISE" .numerical k!"listenNoise" <|
        /- 6869 -/ .prim k!"MACRO-PER-CYCLE" .numerical k!"macroPerCycle" <|
        /- 6870 -/ .prim k!"MACROTICK-DURATION" .lit k!"macrotickDuration" <|
        /- 6871 -/ .prim k!"MAX-WITHOUT-CLOCK-CORRECTION-FATAL" .numerical k!"maxWithoutClockCorrectionFatal" <|
        /- 6872 -/ .prim k!"MAX-WITHOUT-CLOCK-CORRECTION-PASSIVE" .numerical k!"maxWithoutClockCorrectionPassive" <|
        /- 6873 -/ .prim k!"MINISLOT-ACTION-POINT-OFFSET" .numerical k!"minislotActionPointOffset" <|
        /- 6874 -/ .prim k!"MINISLOT-DURATION" .numerical k!"minislotDuration" <|
        /- 6875 -/ .prim k!"NETWORK-IDLE-TIME" .numerical k!"networkIdleTime" <|
        /- 6876 -/ .prim k!"NETWORK-MANAGEMENT-VECTOR-LENGTH" .numerical k!"networkManagementVectorLength" <|
        /- 6877 -/ .prim k!"NUMBER-OF-MINISLOTS" .numerical k!"numberOfMinislots" <|
        /- 6878 -/ .prim k!"NUMBER-OF-STATIC-SLOTS" .numerical k!"numberOfStaticSlots" <|
        /- 6879 -/ .prim k!"OFFSET-CORRECTION-START" .numerical k!"offsetCorrectionStart" <|
        /- 6880 -/ .prim k!"PAYLOAD-LENGTH-STATIC" .numerical k!"payloadLengthStatic" <|
        /- 6881 -/ .prim k!"SAFETY-MARGIN" .numerical k!"safetyMargin" <|
        /- 6882 -/ .prim k!"SAMPLE-CLOCK-PERIOD" .lit k!"sampleClockPeriod" <|
        /- 6883 -/ .prim k!"STATIC-SLOT-DURATION" .numerical k!"staticSlotDuration" <|
        /- 6884 -/ .prim k!"SYMBOL-WINDOW" .numerical k!"symbolWindow" <|
        /- 6885 -/ .prim k!"SYMBOL-WINDOW-ACTION-POINT-OFFSET" .numerical k!"symbolWindowActionPointOffset" <|
        /- 6886 -/ .prim k!"SYNC-FRAME-ID-COUNT-MAX" .numerical k!"syncFrameIdCountMax" <|
        /- 6887 -/ .prim k!"TRANCEIVER-STANDBY-DELAY" .lit k!"tranceiverStandbyDelay" <|
        /- 6888 -/ .prim k!"TRANSMISSION-START-SEQUENCE-DURATION" .numerical k!"transmissionStartSequenceDuration" <|
        /- 6889 -/ .prim k!"WAKEUP-RX-IDLE" .numerical k!"wakeupRxIdle" <|
        /- 6890 -/ .prim k!"WAKEUP-RX-LOW" .numerical k!"wakeupRxLow" <|
        /- 6891 -/ .prim k!"WAKEUP-RX-WINDOW" .numerical k!"wakeupRxWindow" <|
        /- 6892 -/ .prim k!"WAKEUP-TX-ACTIVE" .numerical k!"wakeupTxActive" <|
        /- 6893 -/ .prim k!"WAKEUP-TX-IDLE" .numerical k!"wakeupTxIdle" <|
        .nil) <|
      .nil) <|
    .nil) <|
  .nil

/-- `writeFlexrayCommunicationController`, `writer/arxml_writer.py:9155-9198` -/
def writeFlexrayCommunicationController_FlexrayCommunicationController : WB :=
  /- 9158 -/ .wrap .always k!"FLEXRAY-COMMUNICATION-CONTROLLER" (
    /- 9159 -/ writeIdentifiable_ARPackage.app <|
    /- 9160 -/ .wrap .always k!"FLEXRAY-COMMUNICATION-CONTROLLER-VARIANTS" (
      /- 9161 -/ .wrap .always k!"FLEXRAY-COMMUNICATION-CONTROLLER-CONDITIONAL" (
        /- 9163 -/ .prim k!"ACCEPTED-STARTUP-RANGE" .numerical k!"acceptedStartupRange" <|
        /- 9164 -/ .prim k!"ALLOW-HALT-DUE-TO-CLOCK" .lit k!"allowHaltDueToClock" <|
        /- 9165 -/ .prim k!"ALLOW-PASSIVE-TO-ACTIVE" .numerical k!"allowPassiveToActive" <|
        /- 9166 -/ .prim k!"CLUSTER-DRIFT-DAMPING" .numerical k!"clusterDriftDamping" <|
        /- 9167 -/ .prim k!"DECODING-CORRECTION" .numerical k!"decodingCorrection" <|
        /- 9168 -/ .prim k!"DELAY-COMPENSATION-A" .numerical k!"delayCompensationA" <|
        /- 9169 -/ .prim k!"DELAY-COMPENSATION-B" .numerical k!"delayCompensationB" <|
        /- 9170 -/ .prim k!"KEY-SLOT-ONLY-ENABLED" .lit k!"keySlotOnlyEnabled" <|
        /- 9171 -/ .prim k!"KEY-SLOT-USED-FOR-START-UP" .lit k!"keySlotUsedForStartUp" <|
        /- 9172 -/ .prim k!"KEY-SLOT-USED-FOR-SYNC" .lit k!"keySlotUsedForSync" <|
        /- 9173 -/ .prim k!"LATEST-TX" .numerical k!"latestTX" <|
        /- 9174 -/ .prim k!"LISTEN-TIMEOUT" .numerical k!"listenTimeout" <|
        /- 9175 -/ .prim k!"MACRO-INITIAL-OFFSET-A" .numerical k!"macroInitialOffsetA" <|
        /- 9176 -/ .prim k!"MACRO-INITIAL-OFFSET-B" .numerical k!"macroInitialOffsetB" <|
        /- 9177 -/ .prim k!"MAXIMUM-DYNAMIC-PAYLOAD-LENGTH" .numerical k!"maximumDynamicPayloadLength" <|
        /- 9178 -/ .prim k!"MICRO-INITIAL-OFFSET-A" .numerical k!"microInitialOffsetA" <|
        /- 9179 -/ .prim k!"MICRO-INITIAL-OFFSET-B" .numerical k!"microInitialOffsetB" <|
        /- 9180 -/ .prim k!"MICRO-PER-CYCLE" .numerical k!"microPerCycle" <|
        /- 9181 -/ .prim k!"MICROTICK-DURATION" .lit k!"microtickDuration" <|
        /- 9182 -/ .prim k!"OFFSET-CORRECTION-OUT" .numerical k!"offsetCorrectionOut" <|
        /- 9183 -/ .prim k!"RATE-CORRECTION-OUT" .numerical k!"rateCorrectionOut" <|
        /- 9184 -/ .prim k!"SAMPLES-PER-MICROTICK" .numerical k!"samplesPerMicrotick" <|
        /- 9185 -/ .prim k!"EXTERN-OFFSET-CORRECTION" .numerical k!"externOffsetCorrection" <|
        /- 9186 -/ .prim k!"EXTERN-RATE-CORRECTION" .numerical k!"externRateCorrection" <|
        /- 9187 -/ .prim k!"EXTERNAL-SYNC" .lit k!"externalSync" <|
        /- 9188 -/ .prim k!"FALL-BACK-INTERNAL" .lit k!"fallBackInternal" <|
        /- 9191 -/ .wrap (.any [(k!"flexrayFifos", [])]) k!"FLEXRAY-FIFOS" (
          /- 9193 -/ .each k!"flexrayFifos" [] .plain [⟨[], [], k!"setFlexrayFifoConfiguration_FLEXRAY_FIFO_CONFIGURATION_FlexrayFifoConfiguration"⟩] .skip <|
          .nil) <|
        /- 9194 -/ .prim k!"KEY-SLOT-ID" .numerical k!"keySlotID" <|
        /- 9195 -/ .prim k!"NM-VECTOR-EARLY-UPDATE" .lit k!"nmVectorEarlyUpdate" <|
        /- 9196 -/ .prim k!"SECOND-KEY-SLOT-ID" .numerical k!"secondKeySlotId" <|
        /- 9197 -/ .prim k!"TWO-KEY-SLOT-MODE" .lit k!"twoKeySlotMode" <|
        /- 9198 -/ .prim k!"WAKE-UP-PATTERN" .numerical k!"wakeUpPattern" <|
        .nil) <|
      .nil) <|
    /- 9162 -/ writeCommunicationController_CommunicationController.app <|
    .nil) <|
  .nil

/-- `writeFlexrayFrameTriggeringAbsolutelyScheduledTimings`, `writer/arxml_writer.py:6282-6290` -/
def writeFlexrayFrameTriggeringAbsolutelyScheduledTimings_FlexrayFrameTriggering : WB :=
  /- 6285 -/ .wrap (.any [(k!"absolutelyScheduledTimings", [])]) k!"ABSOLUTELY-SCHEDULED-TIMINGS" (
    /- 6288 -/ .each k!"absolutelyScheduledTimings" [] .plain [⟨[(false, [k!"FlexrayAbsolutelyScheduledTiming"])], [], k!"writeFlexrayAbsolutelyScheduledTiming_FlexrayAbsolutelyScheduledTiming"⟩] .unsupported <|
    .nil) <|
  .nil

/-- `writeFlexrayFrameTriggering`, `writer/arxml_writer.py:6292-6299` -/
def writeFlexrayFrameTriggering_FlexrayFrameTriggering : WB :=
  /- 6294 -/ .wrap .always k!"FLEXRAY-FRAME-TRIGGERING" (
    /- 6295 -/ writeFrameTriggering_FrameTriggering.app <|
    /- 6296 -/ writeFlexrayFrameTriggeringAbsolutelyScheduledTimings_FlexrayFrameTriggering.app <|
    /- 6297 -/ .prim k!"ALLOW-DYNAMIC-L-SDU-LENGTH" .lit k!"allowDynamicLSduLength" <|
    /- 6298 -/ .prim k!"MESSAGE-ID" .numerical k!"messageId" <|
    /- 6299 -/ .prim k!"PAYLOAD-PREAMBLE-INDICATOR" .lit k!"payloadPreambleIndicator" <|
    .nil) <|
  .nil

/-- `writeFlexrayFrame`, `writer/arxml_writer.py:9149-9153` -/
def writeFlexrayFrame_FlexrayFrame : WB :=
  /- 9152 -/ .wrap .always k!"FLEXRAY-FRAME" (
    /- 9153 -/ writeFrame_Frame.app <|
    .nil) <|
  .nil

/-- `writeFlexrayPhysicalChannel`, `writer/arxml_writer.py:6788-6792` -/
def writeFlexrayPhysicalChannel_FlexrayPhysicalChannel : WB :=
  /- 6790 -/ .wrap .always k!"FLEXRAY-PHYSICAL-CHANNEL" (
    /- 6791 -/ writePhysicalChannel_PhysicalChannel.app <|
    /- 6792 -/ .prim k!"CHANNEL-NAME" .lit k!"channelName" <|
    .nil) <|
  .nil

/-- `writeFramePort`, `writer/arxml_writer.py:7484-7486` -/
def writeFramePort_FramePort : WB :=
  /- 7485 -/ .wrap .always k!"FRAME-PORT" (
    /- 7486 -/ writeCommConnectorPort_CommConnectorPort.app <|
    .nil) <|
  .nil

/-- `writeFunctionInhibitionAvailabilityNeeds`, `writer/arxml_writer.py:3717-3721` -/
def writeFunctionInhibitionAvailabilityNeeds_FunctionInhibitionAvailabilityNeeds : WB :=
  /- 3719 -/ .wrap .always k!"FUNCTION-INHIBITION-AVAILABILITY-NEEDS" (
    /- 3720 -/ writeARElement_System.app <|
    /- 3721 -/ .prim k!"CONTROLLED-FID-REF" .ref k!"controlledFidRef" <|
    .nil) <|
  .nil

/-- `writeGateway`, `writer/arxml_writer.py:8203-8209` -/
def writeGateway_Gateway : WB :=
  /- 8205 -/ .wrap .always k!"GATEWAY" (
    /- 8206 -/ writeIdentifiable_ARPackage.app <|
    /- 8207 -/ .prim k!"ECU-REF" .ref k!"ecuRef" <|
    /- 8197 -/ .wrap (.any [(k!"iPduMappings", [])]) k!"I-PDU-MAPPINGS" (
      /- 8199 -/ .each k!"iPduMappings" [] .plain [⟨[], [], k!"writeGateway_Gateway_L8199"⟩] .skip <|
      .nil) <|
    /- 8184 -/ .wrap (.any [(k!"signalMappings", [])]) k!"SIGNAL-MAPPINGS" (
      /- 8186 -/ .each k!"signalMappings" [] .plain [⟨[], [], k!"writeGateway_Gateway_L8186"⟩] .skip <|
      .nil) <|
    .nil) <|
  .nil

/-- `writeGateway`, `writer/arxml_writer.py:8203-8209` (the block at line 8186) -/
def writeGateway_Gateway_L8186 : WB :=
  /- 8186 -/ .wrap .always k!"I-SIGNAL-MAPPING" (
    /- 8187 -/ .prim k!"SOURCE-SIGNAL-REF" .ref k!"sourceSignalRef" <|
    /- 8188 -/ .prim k!"TARGET-SIGNAL-REF" .ref k!"targetSignalRef" <|
    .nil) <|
  .nil

/-- `writeGateway`, `writer/arxml_writer.py:8203-8209` (the block at line 8199) -/
def writeGateway_Gateway_L8199 : WB :=
  /- 8199 -/ .wrap .always k!"I-PDU-MAPPING" (
    /- 8200 -/ .prim k!"SOURCE-I-PDU-REF" .ref k!"sourceIpduRef" <|
    /- 8201 -/ .each k!"targetIPdu" [] .plain [⟨[], [], k!"setTargetIPduRef_TARGET_I_PDU_TargetIPduRef"⟩] .skip <|
    .nil) <|
  .nil

/-- `writeGeneralPurposeIPdu`, `writer/arxml_writer.py:8817-8820` -/
def writeGeneralPurposeIPdu_GeneralPurposeIPdu : WB :=
  /- 8819 -/ .wrap .always k!"GENERAL-PURPOSE-I-PDU" (
    /- 8820 -/ writeIPdu_IPdu.app <|
    .nil) <|
  .nil

/-- `writeGeneralPurposePdu`, `writer/arxml_writer.py:8812-8815` -/
def writeGeneralPurposePdu_GeneralPurposePdu : WB :=
  /- 8814 -/ .wrap .always k!"GENERAL-PURPOSE-PDU" (
    /- 8815 -/ writePdu_Pdu.app <|
    .nil) <|
  .nil

/-- `writeGenericEthernetFrame`, `writer/arxml_writer.py:8627-8630` -/
def writeGenericEthernetFrame_GenericEthernetFrame : WB :=
  /- 8629 -/ .wrap .always k!"ETHERNET-FRAME" (
    /- 8630 -/ writeFrame_Frame.app <|
    .nil) <|
  .nil

/-- `writeGenericTp`, `writer/arxml_writer.py:6550-6553` -/
def writeGenericTp_GenericTp : WB :=
  /- 6551 -/ .wrap .always k!"GENERIC-TP" (
    /- 6552 -/ .prim k!"TP-ADDRESS" .lit k!"tpAddress" <|
    /- 6553 -/ .prim k!"TP-TECHNOLOGY" .lit k!"tpTechnology" <|
    .nil) <|
  .nil

/-- `writeHeapUsage`, `writer/arxml_writer.py:4143-4147` -/
def writeHeapUsage_MeasuredHeapUsage : WB :=
  /- 4144 -/ writeIdentifiable_ARPackage.app <|
  /- 4145 -/ .each k!"hardwareConfiguration" [] .plain [⟨[], [], k!"setHardwareConfiguration_HardwareConfiguration"⟩] .skip <|
  /- 4146 -/ .prim k!"HW-ELEMENT-REF" .ref k!"hwElementRef" <|
  /- 4147 -/ .each k!"softwareContext" [] .plain [⟨[], [], k!"setSoftwareContext_SoftwareContext"⟩] .skip <|
  .nil

/-- `writeHwAttributeDefHwAttributeLiterals`, `writer/arxml_writer.py:9025-9030` -/
def writeHwAttributeDefHwAttributeLiterals_HwAttributeDef : WB :=
  /- 9028 -/ .wrap (.any [(k!"hwAttributeLiterals", [])]) k!"HW-ATTRIBUTE-LITERALS" (
    /- 9030 -/ .each k!"hwAttributeLiterals" [] .plain [⟨[], [], k!"writeHwAttributeLiteralDef_HwAttributeLiteralDef"⟩] .skip <|
    .nil) <|
  .nil

/-- `writeHwAttributeDef`, `writer/arxml_writer.py:9017-9023` -/
def writeHwAttributeDef_HwAttributeDef : WB :=
  /- 9019 -/ .wrap .always k!"HW-ATTRIBUTE-DEF" (
    /- 9020 -/ writeIdentifiable_ARPackage.app <|
    /- 9021 -/ .prim k!"IS-REQUIRED" .lit k!"isRequired" <|
    /- 9022 -/ .prim k!"UNIT-REF" .ref k!"unitRef" <|
    /- 9023 -/ writeHwAttributeDefHwAttributeLiterals_HwAttributeDef.app <|
    .nil) <|
  .nil

/-- `writeHwAttributeLiteralDef`, `writer/arxml_writer.py:9032-9036` -/
def writeHwAttributeLiteralDef_HwAttributeLiteralDef : WB :=
  /- 9034 -/ .wrap .always k!"HW-ATTRIBUTE-LITERAL-DEF" (
    /- 9035 -/ writeIdentifiable_ARPackage.app <|
    /- 9036 -/ .fail .attributeError true <|
    .nil) <|
  .nil

/-- `writeHwAttributeValue`, `writer/arxml_writer.py:8917-8920` -/
def writeHwAttributeValue_HwAttributeValue : WB :=
  /- 8918 -/ .wrap .always k!"HW-ATTRIBUTE-VALUE" (
    /- 8919 -/ .attr k!"T" .raw k!"timestamp" <|
    /- 8919 -/ .attr k!"UUID" .raw k!"uuid" <|
    /- 8920 -/ .prim k!"HW-ATTRIBUTE-DEF-REF" .ref k!"hwAttributeDefRef" <|
    .nil) <|
  .nil

/-- `writeHwCategoryHwAttributeDef`, `writer/arxml_writer.py:9038-9046` -/
def writeHwCategoryHwAttributeDef_HwCategory : WB :=
  /- 9041 -/ .wrap (.any [(k!"hwAttributeDefs", [])]) k!"HW-ATTRIBUTE-DEFS" (
    /- 9044 -/ .each k!"hwAttributeDefs" [] .plain [⟨[(false, [k!"HwAttributeDef"])], [], k!"writeHwAttributeDef_HwAttributeDef"⟩] .unsupported <|
    .nil) <|
  .nil

/-- `writeHwCategory`, `writer/arxml_writer.py:9048-9052` -/
def writeHwCategory_HwCategory : WB :=
  /- 9050 -/ .wrap .always k!"HW-CATEGORY" (
    /- 9051 -/ writeARElement_System.app <|
    /- 9052 -/ writeHwCategoryHwAttributeDef_HwCategory.app <|
    .nil) <|
  .nil

/-- `writeHwDescriptionEntityHwAttributeValues`, `writer/arxml_writer.py:8922-8927` -/
def writeHwDescriptionEntityHwAttributeValues_HwDescriptionEntity : WB :=
  /- 8925 -/ .wrap (.any [(k!"hwAttributeValues", [])]) k!"HW-ATTRIBUTE-VALUES" (
    /- 8927 -/ .each k!"hwAttributeValues" [] .plain [⟨[], [], k!"writeHwAttributeValue_HwAttributeValue"⟩] .skip <|
    .nil) <|
  .nil

/-- `writeHwDescriptionEntityHwCategoryRefs`, `writer/arxml_writer.py:8910-8915` -/
def writeHwDescriptionEntityHwCategoryRefs_HwDescriptionEntity : WB :=
  /- 8913 -/ .wrap (.any [(k!"hwCategoryRefs", [])]) k!"HW-CATEGORY-REFS" (
    /- 8915 -/ .prim k!"HW-CATEGORY-REF" .ref k!"hwCategoryRefs" <|
    .nil) <|
  .nil

/-- `writeHwDescriptionEntity`, `writer/arxml_writer.py:8929-8933` -/
def writeHwDescriptionEntity_HwDescriptionEntity : WB :=
  /- 8930 -/ writeReferrable_ARPackage.app <|
  /- 8931 -/ .prim k!"HW-TYPE-REF" .ref k!"hwTypeRef" <|
  /- 8932 -/ writeHwDescriptionEntityHwCategoryRefs_HwDescriptionEntity.app <|
  /- 8933 -/ writeHwDescriptionEntityHwAttributeValues_HwDescriptionEntity.app <|
  .nil

/-- `writeHwElementConnector`, `writer/arxml_writer.py:8980-8988` -/
def writeHwElementConnector_HwElementConnector : WB :=
  /- 8981 -/ .wrap .always k!"HW-ELEMENT-CONNECTOR" (
    /- 8982 -/ writeDescribable_Describable.app <|
    /- 8984 -/ .prim k!"HW-ELEMENT-REF" .ref k!"hwElementRefs" <|
    /- 8986 -/ .each k!"hwPinConnections" [] .plain [⟨[], [], k!"writeHwPinConnector_HwPinConnector"⟩] .skip <|
    /- 8988 -/ .each k!"hwPinGroupConnections" [] .plain [⟨[], [], k!"writeHwPinGroupConnector_HwPinGroupConnector"⟩] .skip <|
    .nil) <|
  .nil

/-- `writeHwElementHwElementConnections`, `writer/arxml_writer.py:8990-8998` -/
def writeHwElementHwElementConnections_HwElement : WB :=
  /- 8993 -/ .wrap (.any [(k!"hwElementConnections", [])]) k!"HW-ELEMENT-CONNECTIONS" (
    /- 8996 -/ .each k!"hwElementConnections" [] .plain [⟨[(false, [k!"HwElementConnector"])], [], k!"writeHwElementConnector_HwElementConnector"⟩] .unsupported <|
    .nil) <|
  .nil

/-- `writeHwElementHwNestedElementRefs`, `writer/arxml_writer.py:9000-9006` -/
def writeHwElementHwNestedElementRefs_HwElement : WB :=
  /- 9003 -/ .wrap (.any [(k!"nestedElementRefs", [])]) k!"NESTED-ELEMENTS" (
    /- 9006 -/ .oprim k!"HW-ELEMENT-REF-CONDITIONAL" k!"HW-ELEMENT-REF" .ref k!"nestedElementRefs" <|
    .nil) <|
  .nil

/-- `writeHwElementHwPinGroups`, `writer/arxml_writer.py:8956-8964` -/
def writeHwElementHwPinGroups_HwElement : WB :=
  /- 8959 -/ .wrap (.any [(k!"hwPinGroups", [])]) k!"HW-PIN-GROUPS" (
    /- 8962 -/ .each k!"hwPinGroups" [] .plain [⟨[(false, [k!"HwPinGroup"])], [], k!"writeHwPinGroup_HwPinGroup"⟩] .unsupported <|
    .nil) <|
  .nil

/-- `writeHwElement`, `writer/arxml_writer.py:9008-9015` -/
def writeHwElement_HwElement : WB :=
  /- 9011 -/ .wrap .always k!"HW-ELEMENT" (
    /- 9012 -/ writeHwDescriptionEntity_HwDescriptionEntity.app <|
    /- 9013 -/ writeHwElementHwPinGroups_HwElement.app <|
    /- 9014 -/ writeHwElementHwElementConnections_HwElement.app <|
    /- 9015 -/ writeHwElementHwNestedElementRefs_HwElement.app <|
    .nil) <|
  .nil

/-- `writeHwPinConnector`, `writer/arxml_writer.py:8966-8970` -/
def writeHwPinConnector_HwPinConnector : WB :=
  /- 8967 -/ .wrap .always k!"HW-PIN-CONNECTION" (
    /- 8968 -/ writeDescribable_Describable.app <|
    /- 8970 -/ .prim k!"HW-PIN-REF" .ref k!"hwPinRefs" <|
    .nil) <|
  .nil

/-- `writeHwPinGroupConnector`, `writer/arxml_writer.py:8972-8978` -/
def writeHwPinGroupConnector_HwPinGroupConnector : WB :=
  /- 8973 -/ .wrap .always k!"HW-PIN-GROUP-CONNECTION" (
    /- 8974 -/ writeDescribable_Describable.app <|
    /- 8976 -/ .each k!"hwPinConnections" [] .plain [⟨[], [], k!"writeHwPinConnector_HwPinConnector"⟩] .skip <|
    /- 8978 -/ .prim k!"HW-PIN-GROUP-REF" .ref k!"hwPinGroupRefs" <|
    .nil) <|
  .nil

/-- `writeHwPinGroup`, `writer/arxml_writer.py:8935-8938` -/
def writeHwPinGroup_HwPinGroup : WB :=
  /- 8937 -/ .wrap .always k!"HW-PIN-GROUP" (
    /- 8938 -/ writeHwDescriptionEntity_HwDescriptionEntity.app <|
    .nil) <|
  .nil

/-- `writeHwType`, `writer/arxml_writer.py:9054-9057` -/
def writeHwType_HwType : WB :=
  /- 9056 -/ .wrap .always k!"HW-TYPE" (
    /- 9057 -/ writeReferrable_ARPackage.app <|
    .nil) <|
  .nil

/-- `writeIPduPort`, `writer/arxml_writer.py:7488-7493` -/
def writeIPduPort_IPduPort : WB :=
  /- 7489 -/ .wrap .always k!"I-PDU-PORT" (
    /- 7490 -/ writeCommConnectorPort_CommConnectorPort.app <|
    /- 7491 -/ .prim k!"KEY-ID" .numerical k!"keyId" <|
    /- 7492 -/ .prim k!"RX-SECURITY-VERIFICATION" .lit k!"rxSecurityVerification" <|
    /- 7493 -/ .prim k!"USE-AUTH-DATA-FRESHNESS" .lit k!"useAuthDataFreshness" <|
    .nil) <|
  .nil

/-- `writeISignalDataTransformation`, `writer/arxml_writer.py:8232-8237` -/
def writeISignalDataTransformation_ISignal : WB :=
  /- 8235 -/ .wrap (.any [(k!"dataTransformationRef", [])]) k!"DATA-TRANSFORMATIONS" (
    /- 8236 -/ .wrap (.any [(k!"dataTransformationRef", [])]) k!"DATA-TRANSFORMATION-REF-CONDITIONAL" (
      /- 8237 -/ .prim k!"DATA-TRANSFORMATION-REF" .ref k!"dataTransformationRef" <|
      .nil) <|
    .nil) <|
  .nil

/-- `writeISignalGroupComBasedSignalGroupTransformation`, `writer/arxml_writer.py:8460-8465` -/
def writeISignalGroupComBasedSignalGroupTransformation_ISignalGroup : WB :=
  /- 8463 -/ .wrap (.any [(k!"comBasedSignalGroupTransformationRef", [])]) k!"COM-BASED-SIGNAL-GROUP-TRANSFORMATIONS" (
    /- 8464 -/ .wrap (.any [(k!"comBasedSignalGroupTransformationRef", [])]) k!"DATA-TRANSFORMATION-REF-CONDITIONAL" (
      /- 8465 -/ .prim k!"DATA-TRANSFORMATION-REF" .ref k!"comBasedSignalGroupTransformationRef" <|
      .nil) <|
    .nil) <|
  .nil

/-- `writeISignalGroupISignalRef`, `writer/arxml_writer.py:8453-8458` -/
def writeISignalGroupISignalRef_ISignalGroup : WB :=
  /- 8456 -/ .wrap (.any [(k!"iSignalRefs", [])]) k!"I-SIGNAL-REFS" (
    /- 8458 -/ .prim k!"I-SIGNAL-REF" .ref k!"iSignalRefs" <|
    .nil) <|
  .nil

/-- `writeISignalTransformationISignalProps`, `writer/arxml_writer.py:8239-8247`; also `writeISignalGroupTransformationISignalProps` -/
def writeISignalTransformationISignalProps_ISignal : WB :=
  /- 8242 -/ .wrap (.any [(k!"transformationISignalProps", [])]) k!"TRANSFORMATION-I-SIGNAL-PROPSS" (
    /- 8245 -/ .each k!"transformationISignalProps" [] .plain [⟨[(false, [k!"EndToEndTransformationISignalProps"])], [], k!"writeEndToEndTransformationISignalProps_EndToEndTransformationISignalProps"⟩] .unsupported <|
    .nil) <|
  .nil

/-- `writeISignalGroup`, `writer/arxml_writer.py:8540-8547` -/
def writeISignalGroup_ISignalGroup : WB :=
  /- 8542 -/ .wrap .always k!"I-SIGNAL-GROUP" (
    /- 8543 -/ writeIdentifiable_ARPackage.app <|
    /- 8544 -/ writeISignalGroupComBasedSignalGroupTransformation_ISignalGroup.app <|
    /- 8545 -/ writeISignalGroupISignalRef_ISignalGroup.app <|
    /- 8546 -/ .prim k!"SYSTEM-SIGNAL-GROUP-REF" .ref k!"systemSignalGroupRef" <|
    /- 8547 -/ writeISignalTransformationISignalProps_ISignal.app <|
    .nil) <|
  .nil

/-- `writeISignalIPduGroup`, `writer/arxml_writer.py:8549-8565` -/
def writeISignalIPduGroup_ISignalIPduGroup : WB :=
  /- 8551 -/ .wrap .always k!"I-SIGNAL-I-PDU-GROUP" (
    /- 8552 -/ writeIdentifiable_ARPackage.app <|
    /- 8553 -/ .prim k!"COMMUNICATION-DIRECTION" .lit k!"communicationDirection" <|
    /- 8554 -/ .prim k!"COMMUNICATION-MODE" .lit k!"communicationMode" <|
    /- 8557 -/ .wrap (.any [(k!"containedISignalIPduGroupRefs", [])]) k!"CONTAINED-I-SIGNAL-I-PDU-GROUP-REFS" (
      /- 8559 -/ .prim k!"CONTAINED-I-SIGNAL-I-PDU-GROUP-REF" .ref k!"containedISignalIPduGroupRefs" <|
      .nil) <|
    /- 8562 -/ .wrap (.any [(k!"iSignalIPduRefs", [])]) k!"I-SIGNAL-I-PDUS" (
      /- 8565 -/ .oprim k!"I-SIGNAL-I-PDU-REF-CONDITIONAL" k!"I-SIGNAL-I-PDU-REF" .ref k!"iSignalIPduRefs" <|
      .nil) <|
    .nil) <|
  .nil

/-- `writeISignalToPduMappings`, `writer/arxml_writer.py:9073-9085` -/
def writeISignalToPduMappings_ISignalIPdu : WB :=
  /- 9076 -/ .wrap (.any [(k!"iSignalToPduMappings", [])]) k!"I-SIGNAL-TO-PDU-MAPPINGS" (
    /- 9078 -/ .each k!"iSignalToPduMappings" [] .plain [⟨[], [], k!"writeISignalToPduMappings_ISignalIPdu_L9078"⟩] .skip <|
    .nil) <|
  .nil

/-- `writeISignalIPdu`, `writer/arxml_writer.py:9140-9147` -/
def writeISignalIPdu_ISignalIPdu : WB :=
  /- 9142 -/ .wrap .always k!"I-SIGNAL-I-PDU" (
    /- 9143 -/ writeIdentifiable_ARPackage.app <|
    /- 9144 -/ .prim k!"LENGTH" .numerical k!"length" <|
    /- 9135 -/ .wrap (.any [(k!"iPduTimingSpecification", [])]) k!"I-PDU-TIMING-SPECIFICATIONS" (
      /- 9135 -/ .each k!"iPduTimingSpecification" [] .plain [⟨[], [], k!"writeISignalIPdu_ISignalIPdu_L9135"⟩] .skip <|
      .nil) <|
    /- 9146 -/ writeISignalToPduMappings_ISignalIPdu.app <|
    /- 9147 -/ .prim k!"UNUSED-BIT-PATTERN" .numerical k!"unusedBitPattern" <|
    .nil) <|
  .nil

/-- `writeISignalIPdu`, `writer/arxml_writer.py:9140-9147` (the block at line 9135) -/
def writeISignalIPdu_ISignalIPdu_L9135 : WB :=
  /- 9136 -/ .wrap .always k!"I-PDU-TIMING" (
    /- 9137 -/ .prim k!"MINIMUM-DELAY" .lit k!"minimumDelay" <|
    /- 9138 -/ .each k!"transmissionModeDeclaration" [] .plain [⟨[], [], k!"setTransmissionModeDeclaration_TRANSMISSION_MODE_DECLARATION_TransmissionModeDeclaration"⟩] .skip <|
    .nil) <|
  .nil

/-- `writeISignalPort`, `writer/arxml_writer.py:7495-7498` -/
def writeISignalPort_ISignalPort : WB :=
  /- 7496 -/ .wrap .always k!"I-SIGNAL-PORT" (
    /- 7497 -/ writeCommConnectorPort_CommConnectorPort.app <|
    /- 7498 -/ .prim k!"TIMEOUT" .lit k!"timeout" <|
    .nil) <|
  .nil

/-- `writeISignalProps`, `writer/arxml_writer.py:8226-8230` -/
def writeISignalProps_ISignal : WB :=
  /- 8229 -/ .each k!"iSignalProps" [] .plain [⟨[], [], k!"writeISignalProps_ISignal_L8229"⟩] .skip <|
  .nil

/-- `writeISignalProps`, `writer/arxml_writer.py:8226-8230` (the block at line 8229) -/
def writeISignalProps_ISignal_L8229 : WB :=
  /- 8229 -/ .wrap .always k!"I-SIGNAL-PROPS" (
    /- 8230 -/ .prim k!"HANDLE-OUT-OF-RANGE" .lit k!"handleOutOfRange" <|
    .nil) <|
  .nil

/-- `writeISignalToPduMappings`, `writer/arxml_writer.py:9073-9085` (the block at line 9078); also `writeISignalToIPduMapping` -/
def writeISignalToPduMappings_ISignalIPdu_L9078 : WB :=
  /- 9078 -/ .wrap .always k!"I-SIGNAL-TO-I-PDU-MAPPING" (
    /- 9079 -/ writeIdentifiable_ARPackage.app <|
    /- 9080 -/ .prim k!"I-SIGNAL-REF" .ref k!"iSignalRef" <|
    /- 9081 -/ .prim k!"I-SIGNAL-GROUP-REF" .ref k!"iSignalGroupRef" <|
    /- 9082 -/ .prim k!"PACKING-BYTE-ORDER" .lit k!"packingByteOrder" <|
    /- 9083 -/ .prim k!"START-POSITION" .numerical k!"startPosition" <|
    /- 9084 -/ .prim k!"TRANSFER-PROPERTY" .lit k!"transferProperty" <|
    /- 9085 -/ .prim k!"UPDATE-INDICATION-BIT-POSITION" .numerical k!"updateIndicationBitPosition" <|
    .nil) <|
  .nil

/-- `writeISignalTriggering`, `writer/arxml_writer.py:6301-6311` -/
def writeISignalTriggering_ISignalTriggering : WB :=
  /- 6303 -/ .wrap .always k!"I-SIGNAL-TRIGGERING" (
    /- 6304 -/ writeIdentifiable_ARPackage.app <|
    /- 6305 -/ .prim k!"I-SIGNAL-GROUP-REF" .ref k!"iSignalGroupRef" <|
    /- 6308 -/ .wrap (.any [(k!"iSignalPortRefs", [])]) k!"I-SIGNAL-PORT-REFS" (
      /- 6310 -/ .prim k!"I-SIGNAL-PORT-REF" .ref k!"iSignalPortRefs" <|
      .nil) <|
    /- 6311 -/ .prim k!"I-SIGNAL-REF" .ref k!"iSignalRef" <|
    .nil) <|
  .nil

/-- `writeISignal`, `writer/arxml_writer.py:8211-8224` -/
def writeISignal_ISignal : WB :=
  /- 8213 -/ .wrap .always k!"I-SIGNAL" (
    /- 8214 -/ writeIdentifiable_ARPackage.app <|
    /- 8215 -/ writeISignalDataTransformation_ISignal.app <|
    /- 8216 -/ .prim k!"DATA-TYPE-POLICY" .lit k!"dataTypePolicy" <|
    /- 8217 -/ .prim k!"I-SIGNAL-TYPE" .lit k!"iSignalType" <|
    /- 1251 -/ .wrap (.any [(k!"initValue", [])]) k!"INIT-VALUE" (
      /- 1253 -/ .each k!"initValue" [] .plain [⟨[(false, [k!"ApplicationValueSpecification"])], [], k!"writeApplicationValueSpecification_ApplicationValueSpecification"⟩,
        ⟨[(false, [k!"ApplicationRuleBasedValueSpecification"])], [k!"ApplicationValueSpecification"], k!"writeApplicationRuleBasedValueSpecification_ApplicationRuleBasedValueSpecification"⟩,
        ⟨[(false, [k!"CompositeRuleBasedValueSpecification"])], [k!"ApplicationValueSpecification", k!"ApplicationRuleBasedValueSpecification"], k!"writeCompositeRuleBasedValueSpecification_CompositeRuleBasedValueSpecification"⟩,
        ⟨[(false, [k!"TextValueSpecification"])], [k!"ApplicationValueSpecification", k!"ApplicationRuleBasedValueSpecification", k!"CompositeRuleBasedValueSpecification"], k!"writeTextValueSpecification_TextValueSpecification"⟩,
        ⟨[(false, [k!"ConstantReference"])], [k!"ApplicationValueSpecification", k!"ApplicationRuleBasedValueSpecification", k!"CompositeRuleBasedValueSpecification", k!"TextValueSpecification"], k!"setConstantReference_ConstantReference"⟩,
        ⟨[(false, [k!"NumericalValueSpecification"])], [k!"ApplicationValueSpecification", k!"ApplicationRuleBasedValueSpecification", k!"CompositeRuleBasedValueSpecification", k!"TextValueSpecification", k!"ConstantReference"], k!"writeNumericalValueSpecification_NumericalValueSpecification"⟩,
        ⟨[(false, [k!"ArrayValueSpecification"])], [k!"ApplicationValueSpecification", k!"ApplicationRuleBasedValueSpecification", k!"CompositeRuleBasedValueSpecification", k!"TextValueSpecification", k!"ConstantReference", k!"NumericalValueSpecification"], k!"writeArrayValueSpecification_ArrayValueSpecification"⟩,
        ⟨[(false, [k!"RecordValueSpecification"])], [k!"ApplicationValueSpecification", k!"ApplicationRuleBasedValueSpecification", k!"CompositeRuleBasedValueSpecification", k!"TextValueSpecification", k!"ConstantReference", k!"NumericalValueSpecification", k!"ArrayValueSpecification"], k!"writeRecordValueSpecification_RecordValueSpecification"⟩] .unsupported <|
      .nil) <|
    /- 8219 -/ .prim k!"LENGTH" .numerical k!"length" <|
    /- 8220 -/ .each k!"networkRepresentationProps" [] .plain [⟨[], [], k!"setSwDataDefProps_NETWORK_REPRESENTATION_PROPS_SwDataDefProps"⟩] .skip <|
    /- 8221 -/ .prim k!"SYSTEM-SIGNAL-REF" .ref k!"systemSignalRef" <|
    /- 1251 -/ .wrap (.any [(k!"timeoutSubstitutionValue", [])]) k!"TIMEOUT-SUBSTITUTION-VALUE" (
      /- 1253 -/ .each k!"timeoutSubstitutionValue" [] .plain [⟨[(false, [k!"ApplicationValueSpecification"])], [], k!"writeApplicationValueSpecification_ApplicationValueSpecification"⟩,
        ⟨[(false, [k!"ApplicationRuleBasedValueSpecification"])], [k!"ApplicationValueSpecification"], k!"writeApplicationRuleBasedValueSpecification_ApplicationRuleBasedValueSpecification"⟩,
        ⟨[(false, [k!"CompositeRuleBasedValueSpecification"])], [k!"ApplicationValueSpecification", k!"ApplicationRuleBasedValueSpecification"], k!"writeCompositeRuleBasedValueSpecification_CompositeRuleBasedValueSpecification"⟩,
        ⟨[(false, [k!"TextValueSpecification"])], [k!"ApplicationValueSpecification", k!"ApplicationRuleBasedValueSpecification", k!"CompositeRuleBasedValueSpecification"], k!"writeTextValueSpecification_TextValueSpecification"⟩,
        ⟨[(false, [k!"ConstantReference"])], [k!"ApplicationValueSpecification", k!"ApplicationRuleBasedValueSpecification", k!"CompositeRuleBasedValueSpecification", k!"TextValueSpecification"], k!"setConstantReference_ConstantReference"⟩,
        ⟨[(false, [k!"NumericalValueSpecification"])], [k!"ApplicationValueSpecification", k!"ApplicationRuleBasedValueSpecification", k!"CompositeRuleBasedValueSpecification", k!"TextValueSpecification", k!"ConstantReference"], k!"writeNumericalValueSpecification_NumericalValueSpecification"⟩,
        ⟨[(false, [k!"ArrayValueSpecification"])], [k!"ApplicationValueSpecification", k!"ApplicationRuleBasedValueSpecification", k!"CompositeRuleBasedValueSpecification", k!"TextValueSpecification", k!"ConstantReference", k!"NumericalValueSpecification"], k!"writeArrayValueSpecification_ArrayValueSpecification"⟩,
        ⟨[(false, [k!"RecordValueSpecification"])], [k!"ApplicationValueSpecification", k!"ApplicationRuleBasedValueSpecification", k!"CompositeRuleBasedValueSpecification", k!"TextValueSpecification", k!"ConstantReference", k!"NumericalValueSpecification", k!"ArrayValueSpecification"], k!"writeRecordValueSpecification_RecordValueSpecification"⟩] .unsupported <|
      .nil) <|
    /- 8223 -/ writeISignalProps_ISignal.app <|
    /- 8224 -/ writeISignalTransformationISignalProps_ISignal.app <|
    .nil) <|
  .nil

/-- `writeIdsMgrNeeds`, `writer/arxml_writer.py:3627-3631` -/
def writeIdsMgrNeeds_IdsMgrNeeds : WB :=
  /- 3628 -/ .wrap .always k!"IDS-MGR-NEEDS" (
    /- 3630 -/ writeARElement_System.app <|
    /- 3631 -/ .prim k!"USE-SMART-SENSOR-API" .lit k!"useSmartSensorApi" <|
    .nil) <|
  .nil

/-- `writeImplementationDataTypeSubElements`, `writer/arxml_writer.py:5383-5391`; also `writeImplementationDataTypeElementSubElements` -/
def writeImplementationDataTypeSubElements_ImplementationDataType : WB :=
  /- 5386 -/ .wrap (.any [(k!"subElements", [])]) k!"SUB-ELEMENTS" (
    /- 5389 -/ .each k!"subElements" [] .plain [⟨[(false, [k!"ImplementationDataTypeElement"])], [], k!"writeImplementationDataTypeElement_ImplementationDataTypeElement"⟩] .unsupported <|
    .nil) <|
  .nil

/-- `writeImplementationDataTypeElement`, `writer/arxml_writer.py:5373-5381` -/
def writeImplementationDataTypeElement_ImplementationDataTypeElement : WB :=
  /- 5375 -/ .wrap .always k!"IMPLEMENTATION-DATA-TYPE-ELEMENT" (
    /- 5376 -/ writeDiagnosticCapabilityElement_DiagEventDebounceTimeBased.app <|
    /- 5377 -/ .prim k!"ARRAY-SIZE" .lit k!"arraySize" <|
    /- 5378 -/ .prim k!"ARRAY-SIZE-HANDLING" .lit k!"arraySizeHandling" <|
    /- 5379 -/ .prim k!"ARRAY-SIZE-SEMANTICS" .lit k!"arraySizeSemantics" <|
    /- 5380 -/ writeImplementationDataTypeSubElements_ImplementationDataType.app <|
    /- 5381 -/ .each k!"swDataDefProps" [] .plain [⟨[], [], k!"setSwDataDefProps_SW_DATA_DEF_PROPS_SwDataDefProps"⟩] .skip <|
    .nil) <|
  .nil

/-- `writeImplementationDataTypeSymbolProps`, `writer/arxml_writer.py:5402-5403` -/
def writeImplementationDataTypeSymbolProps_ImplementationDataType : WB :=
  /- 5403 -/ .each k!"symbolProps" [] .plain [⟨[], [], k!"writeSymbolProps_SymbolProps"⟩] .skip <|
  .nil

/-- `writeImplementationDataType`, `writer/arxml_writer.py:5405-5413` -/
def writeImplementationDataType_ImplementationDataType : WB :=
  /- 5407 -/ .wrap .always k!"IMPLEMENTATION-DATA-TYPE" (
    /- 5408 -/ writeAutosarDataType_AutosarDataType.app <|
    /- 5409 -/ .prim k!"DYNAMIC-ARRAY-SIZE-PROFILE" .lit k!"dynamicArraySizeProfile" <|
    /- 5410 -/ .prim k!"IS-STRUCT-WITH-OPTIONAL-ELEMENT" .lit k!"isStructWithOptionalElement" <|
    /- 5411 -/ writeImplementationDataTypeSymbolProps_ImplementationDataType.app <|
    /- 5412 -/ writeImplementationDataTypeSubElements_ImplementationDataType.app <|
    /- 5413 -/ .prim k!"TYPE-EMITTER" .lit k!"typeEmitter" <|
    .nil) <|
  .nil

/-- `writeIncludedModeDeclarationGroupSet`, `writer/arxml_writer.py:3908-3916` -/
def writeIncludedModeDeclarationGroupSet_IncludedModeDeclarationGroupSet : WB :=
  /- 3910 -/ .wrap .always k!"INCLUDED-MODE-DECLARATION-GROUP-SET" (
    /- 3913 -/ .wrap (.any [(k!"mode_declaration_group_refs", [])]) k!"MODE-DECLARATION-GROUP-REFS" (
      /- 3915 -/ .prim k!"MODE-DECLARATION-GROUP-REF" .ref k!"mode_declaration_group_refs" <|
      .nil) <|
    /- 3916 -/ .prim k!"PREFIX" .lit k!"prefix" <|
    .nil) <|
  .nil

/-- `writeIndicatorStatusNeeds`, `writer/arxml_writer.py:3711-3715` -/
def writeIndicatorStatusNeeds_IndicatorStatusNeeds : WB :=
  /- 3713 -/ .wrap .always k!"INDICATOR-STATUS-NEEDS" (
    /- 3714 -/ writeARElement_System.app <|
    /- 3715 -/ .prim k!"TYPE" .lit k!"type" <|
    .nil) <|
  .nil

/-- `writeInitEvent`, `writer/arxml_writer.py:2609-2612` -/
def writeInitEvent_InitEvent : WB :=
  /- 2611 -/ .wrap .always k!"INIT-EVENT" (
    /- 2612 -/ setRTEEvent_RTEEvent.app <|
    .nil) <|
  .nil

/-- `writeInnerDataPrototypeGroupInCompositionInstanceRef`, `writer/arxml_writer.py:2965-2970` -/
def writeInnerDataPrototypeGroupInCompositionInstanceRef_DATA_PROTOTYPE_GROUP_IREF_InnerDataPrototypeGroupInCompositionInstanceRef : WB :=
  /- 2967 -/ .wrap .always k!"DATA-PROTOTYPE-GROUP-IREF" (
    /- 2969 -/ .prim k!"CONTEXT-SW-COMPONENT-PROTOTYPE-REF" .ref k!"contextSwComponentPrototypeRefs" <|
    /- 2970 -/ .prim k!"TARGET-DATA-PROTOTYPE-GROUP-REF" .ref k!"targetDataPrototypeGroupRef" <|
    .nil) <|
  .nil

/-- `writeInnerGroupIRef`, `writer/arxml_writer.py:1486-1489` -/
def writeInnerGroupIRef_InnerPortGroupInCompositionInstanceRef : WB :=
  /- 1487 -/ .wrap .always k!"INNER-GROUP-IREF" (
    /- 1489 -/ .prim k!"TARGET-REF" .ref k!"targetRef" <|
    .nil) <|
  .nil

/-- `writeInnerRunnableEntityGroupInCompositionInstanceRef`, `writer/arxml_writer.py:2972-2977` -/
def writeInnerRunnableEntityGroupInCompositionInstanceRef_RUNNABLE_ENTITY_GROUP_IREF_InnerRunnableEntityGroupInCompositionInstanceRef : WB :=
  /- 2974 -/ .wrap .always k!"RUNNABLE-ENTITY-GROUP-IREF" (
    /- 2976 -/ .prim k!"CONTEXT-SW-COMPONENT-PROTOTYPE-REF" .ref k!"contextSwComponentPrototypeRefs" <|
    /- 2977 -/ .prim k!"TARGET-RUNNABLE-ENTITY-GROUP-REF" .ref k!"targetRunnableEntityGroupRef" <|
    .nil) <|
  .nil

/-- `writeInstanceEventInCompositionInstanceRef`, `writer/arxml_writer.py:1763-1766` -/
def writeInstanceEventInCompositionInstanceRef_InstanceEventInCompositionInstanceRef : WB :=
  /- 1765 -/ .prim k!"CONTEXT-COMPONENT-PROTOTYPE-REF" .ref k!"contextComponentPrototypeRefs" <|
  /- 1766 -/ .prim k!"TARGET-EVENT-REF" .ref k!"targetEventRef" <|
  .nil

/-- `writeInstantiationRTEEventProps`, `writer/arxml_writer.py:1768-1777` -/
def writeInstantiationRTEEventProps_InstantiationTimingEventProps : WB :=
  /- 1769 -/ .wrap .always k!"INSTANTIATION-TIMING-EVENT-PROPS" (
    /- 1770 -/ .attr k!"T" .raw k!"timestamp" <|
    /- 1770 -/ .attr k!"UUID" .raw k!"uuid" <|
    /- 1772 -/ .each k!"refinedEventIRef" [] .plain [⟨[], [], k!"writeInstantiationRTEEventProps_InstantiationTimingEventProps_L1772"⟩] .skip <|
    /- 1776 -/ .prim k!"SHORT-LABEL" .lit k!"shortLabel" <|
    /- 1777 -/ .prim k!"PERIOD" .lit k!"period" <|
    .nil) <|
  .nil

/-- `writeInstantiationRTEEventProps`, `writer/arxml_writer.py:1768-1777` (the block at line 1772) -/
def writeInstantiationRTEEventProps_InstantiationTimingEventProps_L1772 : WB :=
  /- 1772 -/ .wrap .always k!"REFINED-EVENT-IREF" (
    /- 1774 -/ .attr k!"T" .raw k!"timestamp" <|
    /- 1774 -/ .attr k!"UUID" .raw k!"uuid" <|
    /- 1775 -/ writeInstanceEventInCompositionInstanceRef_InstanceEventInCompositionInstanceRef.app <|
    .nil) <|
  .nil

/-- `writeTriggerInterface`, `writer/arxml_writer.py:5581-5582`; also `writeInternalTriggerOccurredEvent` -/
def writeTriggerInterface_TriggerInterface : WB :=
  .nil

/-- `writeIoHwAbstractionServerAnnotation`, `writer/arxml_writer.py:1443-1447` -/
def writeIoHwAbstractionServerAnnotation_IoHwAbstractionServerAnnotation : WB :=
  /- 1444 -/ .wrap .always k!"IO-HW-ABSTRACTION-SERVER-ANNOTATION" (
    /- 1445 -/ .prim k!"FILTERING-DEBOUNCING" .lit k!"filteringDebouncing" <|
    /- 1446 -/ .prim k!"PULSE-TEST" .lit k!"pulseTest" <|
    /- 1447 -/ .prim k!"TRIGGER-REF" .ref k!"triggerRef" <|
    .nil) <|
  .nil

/-- `writeJ1939NmNode`, `writer/arxml_writer.py:5802-5807` -/
def writeJ1939NmNode_J1939NmNode : WB :=
  /- 5804 -/ .wrap .always k!"J-1939-NM-NODE" (
    /- 5805 -/ writeNmNode_NmNode.app <|
    /- 5806 -/ .prim k!"ADDRESS-CONFIGURATION-CAPABILITY" .lit k!"addressConfigurationCapability" <|
    /- 5807 -/ .each k!"nodeName" [] .plain [⟨[], [], k!"setChildElementJ1939NodeName_NODE_NAME_J1939NodeName"⟩] .skip <|
    .nil) <|
  .nil

/-- `writeKeywordClassifications`, `writer/arxml_writer.py:6918-6923` -/
def writeKeywordClassifications_Keyword : WB :=
  /- 6921 -/ .wrap (.any [(k!"classifications", [])]) k!"CLASSIFICATIONS" (
    /- 6923 -/ .prim k!"CLASSIFICATION" .lit k!"classifications" <|
    .nil) <|
  .nil

end Verif.Gen.W
