import Verif.Gen.Write0
-- generated by tools/gen_codec.py; do not edit
namespace Verif.Gen.W
open Verif Verif.Model

/-- `setStackUsage`, `writer/arxml_writer.py:4202-4208` -/
def setStackUsage_StackUsage : WB :=
  /- 4204 -/ writeIdentifiable_ARPackage.app <|
  /- 4205 -/ .prim k!"EXECUTABLE-ENTITY-REF" .ref k!"executableEntityRef" <|
  /- 4206 -/ .each k!"hardwareConfiguration" [] .plain [⟨[], [], k!"setHardwareConfiguration_HardwareConfiguration"⟩] .skip <|
  /- 4207 -/ .prim k!"HW-ELEMENT-REF" .ref k!"hwElementRef" <|
  /- 4208 -/ .each k!"softwareContext" [] .plain [⟨[], [], k!"setSoftwareContext_SoftwareContext"⟩] .skip <|
  .nil

/-- `setMeasuredStackUsage`, `writer/arxml_writer.py:4216-4223` -/
def setMeasuredStackUsage_MeasuredStackUsage : WB :=
  /- 4218 -/ .wrap .always k!"MEASURED-STACK-USAGE" (
    /- 4219 -/ setStackUsage_StackUsage.app <|
    /- 4220 -/ .prim k!"AVERAGE-MEMORY-CONSUMPTION" .numerical k!"averageMemoryConsumption" <|
    /- 4221 -/ .prim k!"MAXIMUM-MEMORY-CONSUMPTION" .numerical k!"maximumMemoryConsumption" <|
    /- 4222 -/ .prim k!"MINIMUM-MEMORY-CONSUMPTION" .numerical k!"minimumMemoryConsumption" <|
    /- 4223 -/ .prim k!"TEST-PATTERN" .lit k!"testPattern" <|
    .nil) <|
  .nil

/-- `writeCommunicationCycle`, `writer/arxml_writer.py:6256-6257`; also `writeDocumentViewSelectable`, `writeSenderRecCompositeTypeMapping`, `writeTransformationComSpecProps` -/
def writeCommunicationCycle_CommunicationCycle : WB :=
  /- 6257 -/ .attr k!"T" .raw k!"timestamp" <|
  /- 6257 -/ .attr k!"UUID" .raw k!"uuid" <|
  .nil

/-- `writePaginateable`, `writer/arxml_writer.py:1844-1845` -/
def writePaginateable_Paginateable : WB :=
  /- 1845 -/ writeCommunicationCycle_CommunicationCycle.app <|
  .nil

/-- `setMlFormula`, `writer/arxml_writer.py:1887-1899` -/
def setMlFormula_FORMULA_MlFormula : WB :=
  /- 1889 -/ .wrap .always k!"FORMULA" (
    /- 1890 -/ writePaginateable_Paginateable.app <|
    /- 1891 -/ .each k!"formulaCaption" [] .plain [⟨[], [], k!"setCaption_FORMULA_CAPTION_Caption"⟩] .skip <|
    /- 1893 -/ .each k!"lGraphics" [] .plain [⟨[], [], k!"setMlFormula_FORMULA_MlFormula_L1893"⟩] .skip <|
    /- 1897 -/ .each k!"verbatim" [] .plain [⟨[], [], k!"setMultiLanguageVerbatim_VERBATIM_MultiLanguageVerbatim"⟩] .skip <|
    /- 1898 -/ .each k!"texMath" [] .plain [⟨[], [], k!"setMultiLanguagePlainText_TEX_MATH_MultiLanguagePlainText"⟩] .skip <|
    /- 1899 -/ .each k!"genericMath" [] .plain [⟨[], [], k!"setMultiLanguagePlainText_GENERIC_MATH_MultiLanguagePlainText"⟩] .skip <|
    .nil) <|
  .nil

/-- `setMlFormula`, `writer/arxml_writer.py:1887-1899` (the block at line 1893); also `writeMlFigureLGraphics` -/
def setMlFormula_FORMULA_MlFormula_L1893 : WB :=
  /- 1893 -/ .wrap .always k!"L-GRAPHIC" (
    /- 1895 -/ .attr k!"L" .raw k!"l" <|
    /- 1896 -/ .each k!"graphic" [] .plain [⟨[], [], k!"setGraphic_GRAPHIC_Graphic"⟩] .skip <|
    .nil) <|
  .nil

/-- `setMlFormula`, `writer/arxml_writer.py:1887-1899` -/
def setMlFormula_INFORMAL_FORMULA_MlFormula : WB :=
  /- 1889 -/ .wrap .always k!"INFORMAL-FORMULA" (
    /- 1890 -/ writePaginateable_Paginateable.app <|
    /- 1891 -/ .each k!"formulaCaption" [] .plain [⟨[], [], k!"setCaption_FORMULA_CAPTION_Caption"⟩] .skip <|
    /- 1893 -/ .each k!"lGraphics" [] .plain [⟨[], [], k!"setMlFormula_FORMULA_MlFormula_L1893"⟩] .skip <|
    /- 1897 -/ .each k!"verbatim" [] .plain [⟨[], [], k!"setMultiLanguageVerbatim_VERBATIM_MultiLanguageVerbatim"⟩] .skip <|
    /- 1898 -/ .each k!"texMath" [] .plain [⟨[], [], k!"setMultiLanguagePlainText_TEX_MATH_MultiLanguagePlainText"⟩] .skip <|
    /- 1899 -/ .each k!"genericMath" [] .plain [⟨[], [], k!"setMultiLanguagePlainText_GENERIC_MATH_MultiLanguagePlainText"⟩] .skip <|
    .nil) <|
  .nil

/-- `setModeDeclaration`, `writer/arxml_writer.py:5644-5647` -/
def setModeDeclaration_ModeDeclaration : WB :=
  /- 5645 -/ .wrap .always k!"MODE-DECLARATION" (
    /- 5646 -/ writeIdentifiable_ARPackage.app <|
    /- 5647 -/ .prim k!"VALUE" .numerical k!"value" <|
    .nil) <|
  .nil

/-- `setModeInBswModuleDescriptionInstanceRef`, `writer/arxml_writer.py:2547-2551` -/
def setModeInBswModuleDescriptionInstanceRef_DISABLED_IN_MODE_IREF_ModeInBswModuleDescriptionInstanceRef : WB :=
  /- 2548 -/ .wrap .always k!"DISABLED-IN-MODE-IREF" (
    /- 2549 -/ .attr k!"T" .raw k!"timestamp" <|
    /- 2549 -/ .attr k!"UUID" .raw k!"uuid" <|
    /- 2550 -/ .prim k!"CONTEXT-MODE-DECLARATION-GROUP-REF" .ref k!"contextModeDeclarationGroupRef" <|
    /- 2551 -/ .prim k!"TARGET-MODE-REF" .ref k!"targetModeRef" <|
    .nil) <|
  .nil

/-- `setModeInBswModuleDescriptionInstanceRef`, `writer/arxml_writer.py:2547-2551` -/
def setModeInBswModuleDescriptionInstanceRef_MODE_IREF_ModeInBswModuleDescriptionInstanceRef : WB :=
  /- 2548 -/ .wrap .always k!"MODE-IREF" (
    /- 2549 -/ .attr k!"T" .raw k!"timestamp" <|
    /- 2549 -/ .attr k!"UUID" .raw k!"uuid" <|
    /- 2550 -/ .prim k!"CONTEXT-MODE-DECLARATION-GROUP-REF" .ref k!"contextModeDeclarationGroupRef" <|
    /- 2551 -/ .prim k!"TARGET-MODE-REF" .ref k!"targetModeRef" <|
    .nil) <|
  .nil

/-- `setModeSwitchReceiverComSpec`, `writer/arxml_writer.py:1331-1337` -/
def setModeSwitchReceiverComSpec_ModeSwitchReceiverComSpec : WB :=
  /- 1333 -/ .wrap .always k!"MODE-SWITCH-RECEIVER-COM-SPEC" (
    /- 1334 -/ .attr k!"T" .raw k!"timestamp" <|
    /- 1334 -/ .attr k!"UUID" .raw k!"uuid" <|
    /- 1335 -/ .prim k!"ENHANCED-MODE-API" .lit k!"enhancedModeApi" <|
    /- 1336 -/ .prim k!"MODE-GROUP-REF" .ref k!"modeGroupRef" <|
    /- 1337 -/ .prim k!"SUPPORTS-ASYNCHRONOUS-MODE-SWITCH" .lit k!"supportsAsynchronousModeSwitch" <|
    .nil) <|
  .nil

/-- `setModeSwitchedAckRequest`, `writer/arxml_writer.py:1088-1092` -/
def setModeSwitchedAckRequest_MODE_SWITCHED_ACK_ModeSwitchedAckRequest : WB :=
  /- 1090 -/ .wrap .always k!"MODE-SWITCHED-ACK" (
    /- 1091 -/ .attr k!"T" .raw k!"timestamp" <|
    /- 1091 -/ .attr k!"UUID" .raw k!"uuid" <|
    /- 1092 -/ .prim k!"TIMEOUT" .lit k!"timeout" <|
    .nil) <|
  .nil

/-- `setMsrQueryArg`, `writer/arxml_writer.py:2003-2008` -/
def setMsrQueryArg_MsrQueryArg : WB :=
  /- 2004 -/ .wrap .always k!"MSR-QUERY-ARG" (
    /- 2005 -/ .attr k!"T" .raw k!"timestamp" <|
    /- 2005 -/ .attr k!"UUID" .raw k!"uuid" <|
    /- 2006 -/ .prim k!"ARG" .lit k!"arg" <|
    /- 2008 -/ .attr k!"SI" .getValue k!"si" <|
    .nil) <|
  .nil

/-- `setMsrQueryP2`, `writer/arxml_writer.py:1987-1993` -/
def setMsrQueryP2_MsrQueryP2 : WB :=
  /- 1989 -/ .wrap .always k!"MSR-QUERY-P2" (
    /- 1990 -/ .attr k!"T" .raw k!"timestamp" <|
    /- 1990 -/ .attr k!"UUID" .raw k!"uuid" <|
    /- 1992 -/ .each k!"msrQueryProps" [] .plain [⟨[], [], k!"setMsrQueryProps_MsrQueryProps"⟩] .skip <|
    /- 1993 -/ .each k!"msrQueryResultP2" [] .plain [⟨[], [], k!"writeDocumentationBlock_MSR_QUERY_RESULT_P2_DocumentationBlock"⟩] .skip <|
    .nil) <|
  .nil

/-- `setMsrQueryProps`, `writer/arxml_writer.py:1995-2001` -/
def setMsrQueryProps_MsrQueryProps : WB :=
  /- 1996 -/ .wrap .always k!"MSR-QUERY-PROPS" (
    /- 1997 -/ .attr k!"T" .raw k!"timestamp" <|
    /- 1997 -/ .attr k!"UUID" .raw k!"uuid" <|
    /- 1998 -/ .prim k!"COMMENT" .lit k!"comment" <|
    /- 1999 -/ .prim k!"MSR-QUERY-NAME" .lit k!"msrQueryName" <|
    /- 2001 -/ .each k!"msrQueryArgs" [] .plain [⟨[], [], k!"setMsrQueryArg_MsrQueryArg"⟩] .skip <|
    .nil) <|
  .nil

/-- `setMultiLanguageOverviewParagraph`, `writer/arxml_writer.py:921-926` -/
def setMultiLanguageOverviewParagraph_CHANGE_MultiLanguageOverviewParagraph : WB :=
  /- 923 -/ .wrap .always k!"CHANGE" (
    /- 924 -/ .attr k!"T" .raw k!"timestamp" <|
    /- 924 -/ .attr k!"UUID" .raw k!"uuid" <|
    /- 926 -/ .each k!"l2" [] .plain [⟨[], [], k!"setLOverviewParagraph_LOverviewParagraph"⟩] .skip <|
    .nil) <|
  .nil

/-- `setMultiLanguageOverviewParagraph`, `writer/arxml_writer.py:921-926` -/
def setMultiLanguageOverviewParagraph_DESC_MultiLanguageOverviewParagraph : WB :=
  /- 923 -/ .wrap .always k!"DESC" (
    /- 924 -/ .attr k!"T" .raw k!"timestamp" <|
    /- 924 -/ .attr k!"UUID" .raw k!"uuid" <|
    /- 926 -/ .each k!"l2" [] .plain [⟨[], [], k!"setLOverviewParagraph_LOverviewParagraph"⟩] .skip <|
    .nil) <|
  .nil

/-- `setMultiLanguageOverviewParagraph`, `writer/arxml_writer.py:921-926` -/
def setMultiLanguageOverviewParagraph_ITEM_LABEL_MultiLanguageOverviewParagraph : WB :=
  /- 923 -/ .wrap .always k!"ITEM-LABEL" (
    /- 924 -/ .attr k!"T" .raw k!"timestamp" <|
    /- 924 -/ .attr k!"UUID" .raw k!"uuid" <|
    /- 926 -/ .each k!"l2" [] .plain [⟨[], [], k!"setLOverviewParagraph_LOverviewParagraph"⟩] .skip <|
    .nil) <|
  .nil

/-- `setMultiLanguageOverviewParagraph`, `writer/arxml_writer.py:921-926` -/
def setMultiLanguageOverviewParagraph_REASON_MultiLanguageOverviewParagraph : WB :=
  /- 923 -/ .wrap .always k!"REASON" (
    /- 924 -/ .attr k!"T" .raw k!"timestamp" <|
    /- 924 -/ .attr k!"UUID" .raw k!"uuid" <|
    /- 926 -/ .each k!"l2" [] .plain [⟨[], [], k!"setLOverviewParagraph_LOverviewParagraph"⟩] .skip <|
    .nil) <|
  .nil

/-- `setMultiLanguagePlainText`, `writer/arxml_writer.py:942-947` -/
def setMultiLanguagePlainText_GENERIC_MATH_MultiLanguagePlainText : WB :=
  /- 944 -/ .wrap .always k!"GENERIC-MATH" (
    /- 945 -/ .attr k!"T" .raw k!"timestamp" <|
    /- 945 -/ .attr k!"UUID" .raw k!"uuid" <|
    /- 947 -/ .each k!"l10s" [] .plain [⟨[], [], k!"setLPlainText_LPlainText"⟩] .skip <|
    .nil) <|
  .nil

/-- `setMultiLanguagePlainText`, `writer/arxml_writer.py:942-947` -/
def setMultiLanguagePlainText_TEX_MATH_MultiLanguagePlainText : WB :=
  /- 944 -/ .wrap .always k!"TEX-MATH" (
    /- 945 -/ .attr k!"T" .raw k!"timestamp" <|
    /- 945 -/ .attr k!"UUID" .raw k!"uuid" <|
    /- 947 -/ .each k!"l10s" [] .plain [⟨[], [], k!"setLPlainText_LPlainText"⟩] .skip <|
    .nil) <|
  .nil

/-- `setMultiLanguagePlainText`, `writer/arxml_writer.py:942-947` -/
def setMultiLanguagePlainText_USED_LANGUAGES_MultiLanguagePlainText : WB :=
  /- 944 -/ .wrap .always k!"USED-LANGUAGES" (
    /- 945 -/ .attr k!"T" .raw k!"timestamp" <|
    /- 945 -/ .attr k!"UUID" .raw k!"uuid" <|
    /- 947 -/ .each k!"l10s" [] .plain [⟨[], [], k!"setLPlainText_LPlainText"⟩] .skip <|
    .nil) <|
  .nil

/-- `setMultiLanguageVerbatim`, `writer/arxml_writer.py:1969-1982` -/
def setMultiLanguageVerbatim_VERBATIM_MultiLanguageVerbatim : WB :=
  /- 1971 -/ .wrap .always k!"VERBATIM" (
    /- 1972 -/ .attr k!"T" .raw k!"timestamp" <|
    /- 1972 -/ .attr k!"UUID" .raw k!"uuid" <|
    /- 1974 -/ .attr k!"ALLOWBREAK" .getValue k!"allowBreak" <|
    /- 1976 -/ .attr k!"FLOAT" .getValue k!"float" <|
    /- 1978 -/ .attr k!"HELPENTRY" .getValue k!"helpEntry" <|
    /- 1980 -/ .attr k!"PGWIDE" .getValue k!"pgwide" <|
    /- 1982 -/ .each k!"l5s" [] .plain [⟨[], [], k!"setLVerbatim_LVerbatim"⟩] .skip <|
    .nil) <|
  .nil

/-- `setMultiLongName`, `writer/arxml_writer.py:911-916` -/
def setMultiLongName_LABEL_MultilanguageLongName : WB :=
  /- 913 -/ .wrap .always k!"LABEL" (
    /- 914 -/ .attr k!"T" .raw k!"timestamp" <|
    /- 914 -/ .attr k!"UUID" .raw k!"uuid" <|
    /- 916 -/ .each k!"l4" [] .plain [⟨[], [], k!"setLLongName_LLongName"⟩] .skip <|
    .nil) <|
  .nil

/-- `setMultiLongName`, `writer/arxml_writer.py:911-916` -/
def setMultiLongName_LONG_NAME_MultilanguageLongName : WB :=
  /- 913 -/ .wrap .always k!"LONG-NAME" (
    /- 914 -/ .attr k!"T" .raw k!"timestamp" <|
    /- 914 -/ .attr k!"UUID" .raw k!"uuid" <|
    /- 916 -/ .each k!"l4" [] .plain [⟨[], [], k!"setLLongName_LLongName"⟩] .skip <|
    .nil) <|
  .nil

/-- `setMultidimensionalTime`, `writer/arxml_writer.py:4063-4067` -/
def setMultidimensionalTime_BEST_CASE_EXECUTION_TIME_MultidimensionalTime : WB :=
  /- 4065 -/ .wrap .always k!"BEST-CASE-EXECUTION-TIME" (
    /- 4066 -/ .prim k!"CSE-CODE" .lit k!"cseCode" <|
    /- 4067 -/ .prim k!"CSE-CODE-FACTOR" .numerical k!"cseCodeFactor" <|
    .nil) <|
  .nil

/-- `setMultidimensionalTime`, `writer/arxml_writer.py:4063-4067` -/
def setMultidimensionalTime_ESTIMATED_EXECUTION_TIME_MultidimensionalTime : WB :=
  /- 4065 -/ .wrap .always k!"ESTIMATED-EXECUTION-TIME" (
    /- 4066 -/ .prim k!"CSE-CODE" .lit k!"cseCode" <|
    /- 4067 -/ .prim k!"CSE-CODE-FACTOR" .numerical k!"cseCodeFactor" <|
    .nil) <|
  .nil

/-- `setMultidimensionalTime`, `writer/arxml_writer.py:4063-4067` -/
def setMultidimensionalTime_MAXIMUM_EXECUTION_TIME_MultidimensionalTime : WB :=
  /- 4065 -/ .wrap .always k!"MAXIMUM-EXECUTION-TIME" (
    /- 4066 -/ .prim k!"CSE-CODE" .lit k!"cseCode" <|
    /- 4067 -/ .prim k!"CSE-CODE-FACTOR" .numerical k!"cseCodeFactor" <|
    .nil) <|
  .nil

/-- `setMultidimensionalTime`, `writer/arxml_writer.py:4063-4067` -/
def setMultidimensionalTime_MINIMUM_EXECUTION_TIME_MultidimensionalTime : WB :=
  /- 4065 -/ .wrap .always k!"MINIMUM-EXECUTION-TIME" (
    /- 4066 -/ .prim k!"CSE-CODE" .lit k!"cseCode" <|
    /- 4067 -/ .prim k!"CSE-CODE-FACTOR" .numerical k!"cseCodeFactor" <|
    .nil) <|
  .nil

/-- `setMultidimensionalTime`, `writer/arxml_writer.py:4063-4067` -/
def setMultidimensionalTime_NOMINAL_EXECUTION_TIME_MultidimensionalTime : WB :=
  /- 4065 -/ .wrap .always k!"NOMINAL-EXECUTION-TIME" (
    /- 4066 -/ .prim k!"CSE-CODE" .lit k!"cseCode" <|
    /- 4067 -/ .prim k!"CSE-CODE-FACTOR" .numerical k!"cseCodeFactor" <|
    .nil) <|
  .nil

/-- `setMultidimensionalTime`, `writer/arxml_writer.py:4063-4067` -/
def setMultidimensionalTime_SW_REFRESH_TIMING_MultidimensionalTime : WB :=
  /- 4065 -/ .wrap .always k!"SW-REFRESH-TIMING" (
    /- 4066 -/ .prim k!"CSE-CODE" .lit k!"cseCode" <|
    /- 4067 -/ .prim k!"CSE-CODE-FACTOR" .numerical k!"cseCodeFactor" <|
    .nil) <|
  .nil

/-- `setMultidimensionalTime`, `writer/arxml_writer.py:4063-4067` -/
def setMultidimensionalTime_WORST_CASE_EXECUTION_TIME_MultidimensionalTime : WB :=
  /- 4065 -/ .wrap .always k!"WORST-CASE-EXECUTION-TIME" (
    /- 4066 -/ .prim k!"CSE-CODE" .lit k!"cseCode" <|
    /- 4067 -/ .prim k!"CSE-CODE-FACTOR" .numerical k!"cseCodeFactor" <|
    .nil) <|
  .nil

/-- `setNote`, `writer/arxml_writer.py:1926-1933` -/
def setNote_Note : WB :=
  /- 1928 -/ .wrap .always k!"NOTE" (
    /- 1929 -/ .attr k!"T" .raw k!"timestamp" <|
    /- 1929 -/ .attr k!"UUID" .raw k!"uuid" <|
    /- 1930 -/ .each k!"label" [] .plain [⟨[], [], k!"setMultiLongName_LABEL_MultilanguageLongName"⟩] .skip <|
    /- 1932 -/ .attr k!"NOTETYPE" .getValue k!"noteType" <|
    /- 1933 -/ .each k!"noteText" [] .plain [⟨[], [], k!"writeDocumentationBlock_NOTE_TEXT_DocumentationBlock"⟩] .skip <|
    .nil) <|
  .nil

/-- `writeModeGroupInAtomicSwcInstanceRef`, `writer/arxml_writer.py:2941-2943` -/
def writeModeGroupInAtomicSwcInstanceRef_ModeGroupInAtomicSwcInstanceRef : WB :=
  /- 2942 -/ .prim k!"BASE-REF" .ref k!"baseRef" <|
  /- 2943 -/ .prim k!"CONTEXT-PORT-REF" .ref k!"contextPortRef" <|
  .nil

/-- `setPModeGroupInAtomicSwcInstanceRef`, `writer/arxml_writer.py:3069-3074` -/
def setPModeGroupInAtomicSwcInstanceRef_SWC_MODE_GROUP_IREF_PModeGroupInAtomicSwcInstanceRef : WB :=
  /- 3071 -/ .wrap .always k!"SWC-MODE-GROUP-IREF" (
    /- 3072 -/ writeModeGroupInAtomicSwcInstanceRef_ModeGroupInAtomicSwcInstanceRef.app <|
    /- 3073 -/ .prim k!"CONTEXT-P-PORT-REF" .ref k!"contextPPortRef" <|
    /- 3074 -/ .prim k!"TARGET-MODE-GROUP-REF" .ref k!"targetModeGroupRef" <|
    .nil) <|
  .nil

/-- `setPOperationInAtomicSwcInstanceRef`, `writer/arxml_writer.py:2553-2558` -/
def setPOperationInAtomicSwcInstanceRef_OPERATION_IREF_POperationInAtomicSwcInstanceRef : WB :=
  /- 2555 -/ .wrap .always k!"OPERATION-IREF" (
    /- 2556 -/ .attr k!"T" .raw k!"timestamp" <|
    /- 2556 -/ .attr k!"UUID" .raw k!"uuid" <|
    /- 2557 -/ .prim k!"CONTEXT-P-PORT-REF" .ref k!"contextPPortRef" <|
    /- 2558 -/ .prim k!"TARGET-PROVIDED-OPERATION-REF" .ref k!"targetProvidedOperationRef" <|
    .nil) <|
  .nil

/-- `setParameterInAtomicSWCTypeInstanceRef`, `writer/arxml_writer.py:2832-2839` -/
def setParameterInAtomicSWCTypeInstanceRef_AUTOSAR_PARAMETER_IREF_ParameterInAtomicSWCTypeInstanceRef : WB :=
  /- 2834 -/ .wrap .always k!"AUTOSAR-PARAMETER-IREF" (
    /- 2836 -/ .prim k!"CONTEXT-DATA-PROTOTYPE-REF" .ref k!"contextDataPrototypeRefs" <|
    /- 2837 -/ .prim k!"PORT-PROTOTYPE-REF" .ref k!"portPrototypeRef" <|
    /- 2838 -/ .prim k!"ROOT-PARAMETER-DATA-PROTOTYPE-REF" .ref k!"rootParameterDataPrototypeRef" <|
    /- 2839 -/ .prim k!"TARGET-DATA-PROTOTYPE-REF" .ref k!"targetDataPrototypeRef" <|
    .nil) <|
  .nil

/-- `setPhysConstrs`, `writer/arxml_writer.py:2493-2512` -/
def setPhysConstrs_PhysConstrs : WB :=
  /- 2495 -/ .wrap .always k!"PHYS-CONSTRS" (
    /- 2496 -/ .attr k!"T" .raw k!"timestamp" <|
    /- 2496 -/ .attr k!"UUID" .raw k!"uuid" <|
    /- 2498 -/ .prim k!"LOWER-LIMIT" .limit k!"lowerLimit" <|
    /- 2500 -/ .prim k!"UPPER-LIMIT" .limit k!"upperLimit" <|
    /- 2503 -/ .wrap (.any [(k!"scaleConstrs", [])]) k!"SCALE-CONSTRS" (
      /- 2505 -/ .each k!"scaleConstrs" [] .plain [⟨[], [], k!"setScaleConstr_SCALE_CONSTR_ScaleConstr"⟩] .skip <|
      .nil) <|
    /- 2506 -/ .prim k!"MAX-GRADIENT" .numerical k!"maxGradient" <|
    /- 2507 -/ .prim k!"MAX-DIFF" .numerical k!"maxDiff" <|
    /- 2510 -/ .prim k!"MONOTONY" .getText k!"monotony" <|
    /- 2512 -/ .prim k!"UNIT-REF" .ref k!"unitRef" <|
    .nil) <|
  .nil

/-- `setPortPrototype`, `writer/arxml_writer.py:1395-1433` -/
def setPortPrototype_PortPrototype : WB :=
  /- 1398 -/ .wrap (.any [(k!"clientServerAnnotations", [])]) k!"CLIENT-SERVER-ANNOTATIONS" (
    /- 1400 -/ .each k!"clientServerAnnotations" [] .plain [⟨[], [], k!"writeClientServerAnnotation_ClientServerAnnotation"⟩] .skip <|
    .nil) <|
  /- 1403 -/ .each k!"delegatedPortAnnotation" [] .plain [⟨[], [], k!"writeDelegatedPortAnnotation_DelegatedPortAnnotation"⟩] .skip <|
  /- 1406 -/ .wrap (.any [(k!"ioHwAbstractionServerAnnotations", [])]) k!"IO-HW-ABSTRACTION-SERVER-ANNOTATIONS" (
    /- 1408 -/ .each k!"ioHwAbstractionServerAnnotations" [] .plain [⟨[], [], k!"writeIoHwAbstractionServerAnnotation_IoHwAbstractionServerAnnotation"⟩] .skip <|
    .nil) <|
  /- 1411 -/ .wrap (.any [(k!"modePortAnnotations", [])]) k!"MODE-PORT-ANNOTATIONS" (
    /- 1413 -/ .each k!"modePortAnnotations" [] .plain [⟨[], [], k!"writeModePortAnnotation_ModePortAnnotation"⟩] .skip <|
    .nil) <|
  /- 1416 -/ .wrap (.any [(k!"nvDataPortAnnotations", [])]) k!"NV-DATA-PORT-ANNOTATIONS" (
    /- 1418 -/ .each k!"nvDataPortAnnotations" [] .plain [⟨[], [], k!"writeNvDataPortAnnotation_NvDataPortAnnotation"⟩] .skip <|
    .nil) <|
  /- 1421 -/ .wrap (.any [(k!"parameterPortAnnotations", [])]) k!"PARAMETER-PORT-ANNOTATIONS" (
    /- 1423 -/ .each k!"parameterPortAnnotations" [] .plain [⟨[], [], k!"writeParameterPortAnnotation_ParameterPortAnnotation"⟩] .skip <|
    .nil) <|
  /- 1426 -/ .wrap (.any [(k!"senderReceiverAnnotations", [])]) k!"SENDER-RECEIVER-ANNOTATIONS" (
    /- 1428 -/ .each k!"senderReceiverAnnotations" [] .plain [⟨[], [], k!"writeSenderReceiverAnnotation_SenderReceiverAnnotation"⟩] .skip <|
    .nil) <|
  /- 1431 -/ .wrap (.any [(k!"triggerPortAnnotations", [])]) k!"TRIGGER-PORT-ANNOTATIONS" (
    /- 1433 -/ .each k!"triggerPortAnnotations" [] .plain [⟨[], [], k!"writeTriggerPortAnnotation_TriggerPortAnnotation"⟩] .skip <|
    .nil) <|
  .nil

/-- `setPossibleErrorReaction`, `writer/arxml_writer.py:3779-3782` -/
def setPossibleErrorReaction_PossibleErrorReaction : WB :=
  /- 3780 -/ .wrap .always k!"POSSIBLE-ERROR-REACTION" (
    /- 3781 -/ writeIdentifiable_ARPackage.app <|
    /- 3782 -/ .prim k!"REACTION-CODE" .numerical k!"reactionCode" <|
    .nil) <|
  .nil

/-- `setRModeInAtomicSwcInstanceRef`, `writer/arxml_writer.py:2539-2545` -/
def setRModeInAtomicSwcInstanceRef_DISABLED_MODE_IREF_RModeInAtomicSwcInstanceRef : WB :=
  /- 2540 -/ .wrap .always k!"DISABLED-MODE-IREF" (
    /- 2541 -/ .attr k!"T" .raw k!"timestamp" <|
    /- 2541 -/ .attr k!"UUID" .raw k!"uuid" <|
    /- 2542 -/ .prim k!"BASE" .ref k!"baseRef" <|
    /- 2543 -/ .prim k!"CONTEXT-PORT-REF" .ref k!"contextPortRef" <|
    /- 2544 -/ .prim k!"CONTEXT-MODE-DECLARATION-GROUP-PROTOTYPE-REF" .ref k!"contextModeDeclarationGroupPrototypeRef" <|
    /- 2545 -/ .prim k!"TARGET-MODE-DECLARATION-REF" .ref k!"targetModeDeclarationRef" <|
    .nil) <|
  .nil

/-- `setRModeInAtomicSwcInstanceRef`, `writer/arxml_writer.py:2539-2545` -/
def setRModeInAtomicSwcInstanceRef_MODE_IREF_RModeInAtomicSwcInstanceRef : WB :=
  /- 2540 -/ .wrap .always k!"MODE-IREF" (
    /- 2541 -/ .attr k!"T" .raw k!"timestamp" <|
    /- 2541 -/ .attr k!"UUID" .raw k!"uuid" <|
    /- 2542 -/ .prim k!"BASE" .ref k!"baseRef" <|
    /- 2543 -/ .prim k!"CONTEXT-PORT-REF" .ref k!"contextPortRef" <|
    /- 2544 -/ .prim k!"CONTEXT-MODE-DECLARATION-GROUP-PROTOTYPE-REF" .ref k!"contextModeDeclarationGroupPrototypeRef" <|
    /- 2545 -/ .prim k!"TARGET-MODE-DECLARATION-REF" .ref k!"targetModeDeclarationRef" <|
    .nil) <|
  .nil

/-- `setROperationInAtomicSwcInstanceRef`, `writer/arxml_writer.py:2901-2906` -/
def setROperationInAtomicSwcInstanceRef_OPERATION_IREF_ROperationInAtomicSwcInstanceRef : WB :=
  /- 2903 -/ .wrap .always k!"OPERATION-IREF" (
    /- 2904 -/ .attr k!"T" .raw k!"timestamp" <|
    /- 2904 -/ .attr k!"UUID" .raw k!"uuid" <|
    /- 2905 -/ .prim k!"CONTEXT-R-PORT-REF" .ref k!"contextRPortRef" <|
    /- 2906 -/ .prim k!"TARGET-REQUIRED-OPERATION-REF" .ref k!"targetRequiredOperationRef" <|
    .nil) <|
  .nil

/-- `setRTEEvent`, `writer/arxml_writer.py:2560-2568` -/
def setRTEEvent_RTEEvent : WB :=
  /- 2561 -/ writeIdentifiable_ARPackage.app <|
  /- 2562 -/ .prim k!"ACTIVATION-REASON-REPRESENTATION-REF" .ref k!"activationReasonRepresentationRef" <|
  /- 2565 -/ .wrap (.any [(k!"disabledModeIRefs", [])]) k!"DISABLED-MODE-IREFS" (
    /- 2567 -/ .each k!"disabledModeIRefs" [] .plain [⟨[], [], k!"setRModeInAtomicSwcInstanceRef_DISABLED_MODE_IREF_RModeInAtomicSwcInstanceRef"⟩] .skip <|
    .nil) <|
  /- 2568 -/ .prim k!"START-ON-EVENT-REF" .ref k!"startOnEventRef" <|
  .nil

/-- `setRVariableInAtomicSwcInstanceRef`, `writer/arxml_writer.py:2594-2598` -/
def setRVariableInAtomicSwcInstanceRef_RVariableInAtomicSwcInstanceRef : WB :=
  /- 2596 -/ .wrap .always k!"DATA-IREF" (
    /- 2597 -/ .prim k!"CONTEXT-R-PORT-REF" .ref k!"contextRPortRef" <|
    /- 2598 -/ .prim k!"TARGET-DATA-ELEMENT-REF" .ref k!"targetDataElementRef" <|
    .nil) <|
  .nil

/-- `setRequestResponseDelay`, `writer/arxml_writer.py:6576-6580` -/
def setRequestResponseDelay_REQUEST_RESPONSE_DELAY_RequestResponseDelay : WB :=
  /- 6578 -/ .wrap .always k!"REQUEST-RESPONSE-DELAY" (
    /- 6579 -/ .prim k!"MAX-VALUE" .lit k!"maxValue" <|
    /- 6580 -/ .prim k!"MIN-VALUE" .lit k!"minValue" <|
    .nil) <|
  .nil

/-- `writeMemorySections`, `writer/arxml_writer.py:4046-4061` -/
def writeMemorySections_ResourceConsumption : WB :=
  /- 4049 -/ .wrap (.any [(k!"elements", [k!"MemorySection"])]) k!"MEMORY-SECTIONS" (
    /- 4051 -/ .each k!"elements" [k!"MemorySection"] .sorted [⟨[], [], k!"writeMemorySections_ResourceConsumption_L4051"⟩] .skip <|
    .nil) <|
  .nil

/-- `setResourceConsumption`, `writer/arxml_writer.py:4244-4253` -/
def setResourceConsumption_ResourceConsumption : WB :=
  /- 4246 -/ .wrap .always k!"RESOURCE-CONSUMPTION" (
    /- 4247 -/ writeIdentifiable_ARPackage.app <|
    /- 4190 -/ .wrap (.any [(k!"accessCountSets", [])]) k!"ACCESS-COUNT-SETS" (
      /- 4192 -/ .each k!"accessCountSets" [] .plain [⟨[], [], k!"setResourceConsumption_ResourceConsumption_L4192"⟩] .skip <|
      .nil) <|
    /- 4130 -/ .wrap (.any [(k!"elements", [k!"AnalyzedExecutionTime", k!"MeasuredExecutionTime", k!"RoughEstimateOfExecutionTime", k!"SimulatedExecutionTime"])]) k!"EXECUTION-TIMES" (
      /- 4133 -/ .each k!"elements" [k!"AnalyzedExecutionTime", k!"MeasuredExecutionTime", k!"RoughEstimateOfExecutionTime", k!"SimulatedExecutionTime"] .sorted [⟨[(false, [k!"AnalyzedExecutionTime"])], [], k!"writeAnalyzedExecutionTime_AnalyzedExecutionTime"⟩,
        ⟨[(false, [k!"MeasuredExecutionTime"])], [k!"AnalyzedExecutionTime"], k!"writeMeasuredExecutionTime_MeasuredExecutionTime"⟩,
        ⟨[(false, [k!"RoughEstimateOfExecutionTime"])], [k!"AnalyzedExecutionTime", k!"MeasuredExecutionTime"], k!"writeRoughEstimateOfExecutionTime_RoughEstimateOfExecutionTime"⟩,
        ⟨[(false, [k!"SimulatedExecutionTime"])], [k!"AnalyzedExecutionTime", k!"MeasuredExecutionTime", k!"RoughEstimateOfExecutionTime"], k!"writeSimulatedExecutionTime_SimulatedExecutionTime"⟩] .unsupported <|
      .nil) <|
    /- 4169 -/ .wrap (.any [(k!"elements", [k!"HeapUsage"])]) k!"HEAP-USAGES" (
      /- 4172 -/ .each k!"elements" [k!"HeapUsage"] .sorted [⟨[(false, [k!"MeasuredHeapUsage"])], [], k!"writeMeasuredHeapUsage_MeasuredHeapUsage"⟩,
        ⟨[(false, [k!"RoughEstimateHeapUsage"])], [k!"MeasuredHeapUsage"], k!"writeRoughEstimateHeapUsage_RoughEstimateHeapUsage"⟩,
        ⟨[(false, [k!"WorstCaseHeapUsage"])], [k!"MeasuredHeapUsage", k!"RoughEstimateHeapUsage"], k!"writeWorstCaseHeapUsage_WorstCaseHeapUsage"⟩] .unsupported <|
      .nil) <|
    /- 4251 -/ writeMemorySections_ResourceConsumption.app <|
    /- 4182 -/ .wrap (.any [(k!"elements", [k!"SectionNamePrefix"])]) k!"SECTION-NAME-PREFIXS" (
      /- 4184 -/ .each k!"elements" [k!"SectionNamePrefix"] .sorted [⟨[], [], k!"setResourceConsumption_ResourceConsumption_L4184"⟩] .skip <|
      .nil) <|
    /- 4233 -/ .wrap (.any [(k!"elements", [k!"StackUsage"])]) k!"STACK-USAGES" (
      /- 4236 -/ .each k!"elements" [k!"StackUsage"] .sorted [⟨[(false, [k!"RoughEstimateStackUsage"])], [], k!"setRoughEstimateStackUsage_RoughEstimateStackUsage"⟩,
        ⟨[(false, [k!"MeasuredStackUsage"])], [k!"RoughEstimateStackUsage"], k!"setMeasuredStackUsage_MeasuredStackUsage"⟩,
        ⟨[(false, [k!"WorstCaseStackUsage"])], [k!"RoughEstimateStackUsage", k!"MeasuredStackUsage"], k!"setWorstCaseStackUsage_WorstCaseStackUsage"⟩] .unsupported <|
      .nil) <|
    .nil) <|
  .nil

/-- `setResourceConsumption`, `writer/arxml_writer.py:4244-4253` (the block at line 4184) -/
def setResourceConsumption_ResourceConsumption_L4184 : WB :=
  /- 4184 -/ .wrap .always k!"SECTION-NAME-PREFIX" (
    /- 4185 -/ writeReferrable_ARPackage.app <|
    /- 4186 -/ .prim k!"IMPLEMENTED-IN-REF" .ref k!"implementedInRef" <|
    .nil) <|
  .nil

/-- `setResourceConsumption`, `writer/arxml_writer.py:4244-4253` (the block at line 4192) -/
def setResourceConsumption_ResourceConsumption_L4192 : WB :=
  /- 4192 -/ .wrap .always k!"ACCESS-COUNT-SET" (
    /- 4193 -/ .prim k!"COUNT-PROFILE" .lit k!"countProfile" <|
    /- 4196 -/ .wrap (.any [(k!"accessCounts", [])]) k!"ACCESS-COUNTS" (
      /- 4198 -/ .each k!"accessCounts" [] .plain [⟨[], [], k!"setResourceConsumption_ResourceConsumption_L4198"⟩] .skip <|
      .nil) <|
    .nil) <|
  .nil

/-- `setResourceConsumption`, `writer/arxml_writer.py:4244-4253` (the block at line 4198) -/
def setResourceConsumption_ResourceConsumption_L4198 : WB :=
  /- 4198 -/ .wrap .always k!"ACCESS-COUNT" (
    /- 4199 -/ .prim k!"ACCESS-POINT-REF" .ref k!"accessPointRef" <|
    /- 4200 -/ .prim k!"VALUE" .numerical k!"value" <|
    .nil) <|
  .nil

/-- `setRoughEstimateStackUsage`, `writer/arxml_writer.py:4210-4214` -/
def setRoughEstimateStackUsage_RoughEstimateStackUsage : WB :=
  /- 4212 -/ .wrap .always k!"ROUGH-ESTIMATE-STACK-USAGE" (
    /- 4213 -/ setStackUsage_StackUsage.app <|
    /- 4214 -/ .prim k!"MEMORY-CONSUMPTION" .numerical k!"memoryConsumption" <|
    .nil) <|
  .nil

/-- `setRunnableEntityArgument`, `writer/arxml_writer.py:3140-3142` -/
def setRunnableEntityArgument_RunnableEntityArgument : WB :=
  /- 3141 -/ .wrap .always k!"RUNNABLE-ENTITY-ARGUMENT" (
    /- 3142 -/ .prim k!"SYMBOL" .lit k!"symbol" <|
    .nil) <|
  .nil

/-- `setRuntimeError`, `writer/arxml_writer.py:3775-3777` -/
def setRuntimeError_RuntimeError : WB :=
  /- 3776 -/ .wrap .always k!"RUNTIME-ERROR" (
    /- 3777 -/ writeTracedFailure_TracedFailure.app <|
    .nil) <|
  .nil

/-- `setScaleConstr`, `writer/arxml_writer.py:2480-2491` -/
def setScaleConstr_SCALE_CONSTR_ScaleConstr : WB :=
  /- 2482 -/ .wrap .always k!"SCALE-CONSTR" (
    /- 2483 -/ .attr k!"T" .raw k!"timestamp" <|
    /- 2483 -/ .attr k!"UUID" .raw k!"uuid" <|
    /- 2484 -/ .prim k!"SHORT-LABEL" .lit k!"shortLabel" <|
    /- 2485 -/ .each k!"desc" [] .plain [⟨[], [], k!"setMultiLanguageOverviewParagraph_DESC_MultiLanguageOverviewParagraph"⟩] .skip <|
    /- 2487 -/ .prim k!"LOWER-LIMIT" .limit k!"lowerLimit" <|
    /- 2489 -/ .prim k!"UPPER-LIMIT" .limit k!"upperLimit" <|
    /- 2491 -/ .attr k!"VALIDITY" .getValue k!"validity" <|
    .nil) <|
  .nil

/-- `setSdClientConfig`, `writer/arxml_writer.py:6582-6590` -/
def setSdClientConfig_SD_CLIENT_CONFIG_SdClientConfig : WB :=
  /- 6584 -/ .wrap .always k!"SD-CLIENT-CONFIG" (
    /- 6586 -/ .prim k!"CLIENT-SERVICE-MAJOR-VERSION" .numerical k!"clientServiceMajorVersion" <|
    /- 6587 -/ .prim k!"CLIENT-SERVICE-MINOR-VERSION" .numerical k!"clientServiceMinorVersion" <|
    /- 6588 -/ .each k!"initialFindBehavior" [] .plain [⟨[], [], k!"setInitialSdDelayConfig_INITIAL_FIND_BEHAVIOR_InitialSdDelayConfig"⟩] .skip <|
    /- 6589 -/ .each k!"requestResponseDelay" [] .plain [⟨[], [], k!"setRequestResponseDelay_REQUEST_RESPONSE_DELAY_RequestResponseDelay"⟩] .skip <|
    /- 6590 -/ .prim k!"TTL" .numerical k!"ttl" <|
    .nil) <|
  .nil

/-- `setSdServerConfig`, `writer/arxml_writer.py:6637-6645` -/
def setSdServerConfig_SD_SERVER_CONFIG_SdServerConfig : WB :=
  /- 6639 -/ .wrap .always k!"SD-SERVER-CONFIG" (
    /- 6640 -/ .each k!"initialOfferBehavior" [] .plain [⟨[], [], k!"setInitialSdDelayConfig_INITIAL_OFFER_BEHAVIOR_InitialSdDelayConfig"⟩] .skip <|
    /- 6641 -/ .prim k!"OFFER-CYCLIC-DELAY" .lit k!"offerCyclicDelay" <|
    /- 6642 -/ .each k!"requestResponseDelay" [] .plain [⟨[], [], k!"setRequestResponseDelay_REQUEST_RESPONSE_DELAY_RequestResponseDelay"⟩] .skip <|
    /- 6643 -/ .prim k!"SERVER-SERVICE-MAJOR-VERSION" .numerical k!"serverServiceMajorVersion" <|
    /- 6644 -/ .prim k!"SERVER-SERVICE-MINOR-VERSION" .numerical k!"serverServiceMinorVersion" <|
    /- 6645 -/ .prim k!"TTL" .numerical k!"ttl" <|
    .nil) <|
  .nil

/-- `writeSdgCaption`, `writer/arxml_writer.py:740-744` -/
def writeSdgCaption_Sdg : WB :=
  /- 743 -/ .each k!"sdgCaption" [] .plain [⟨[], [], k!"writeSdgCaption_Sdg_L743"⟩] .skip <|
  .nil

/-- `setSdg`, `writer/arxml_writer.py:754-769` -/
def setSdg_Sdg : WB :=
  /- 756 -/ .wrap .always k!"SDG" (
    /- 757 -/ .attr k!"T" .raw k!"timestamp" <|
    /- 757 -/ .attr k!"UUID" .raw k!"uuid" <|
    /- 760 -/ .attr k!"GID" .getValue k!"gid" <|
    /- 761 -/ writeSdgCaption_Sdg.app <|
    /- 765 -/ .each k!"sdgContentsType.sdg" [] .plain [⟨[], [], k!"setSdg_Sdg"⟩] .skip <|
    /- 717 -/ .each k!"sdgContentsType.sd" [] .plain [⟨[], [], k!"setSdg_Sdg_L717"⟩] .skip <|
    /- 731 -/ .each k!"sdgContentsType.sdf" [] .plain [⟨[], [], k!"setSdg_Sdg_L731"⟩] .skip <|
    /- 748 -/ .prim k!"SDX-REF" .ref k!"sdgContentsType.sdxRefs" <|
    /- 752 -/ .prim k!"SDXF" .ref k!"sdgContentsType.sdxfRefs" <|
    .nil) <|
  .nil

/-- `setSdg`, `writer/arxml_writer.py:754-769` (the block at line 717) -/
def setSdg_Sdg_L717 : WB :=
  /- 717 -/ .wrap .always k!"SD" (
    /- 718 -/ .attr k!"T" .raw k!"timestamp" <|
    /- 718 -/ .attr k!"UUID" .raw k!"uuid" <|
    /- 721 -/ .attr k!"GID" .getValue k!"gid" <|
    /- 724 -/ .attr k!"xml:space" .getValue k!"xmlSpace" <|
    /- 727 -/ .text .getValue k!"value" <|
    .nil) <|
  .nil

/-- `setSdg`, `writer/arxml_writer.py:754-769` (the block at line 731) -/
def setSdg_Sdg_L731 : WB :=
  /- 731 -/ .wrap .always k!"SDF" (
    /- 732 -/ .attr k!"T" .raw k!"timestamp" <|
    /- 732 -/ .attr k!"UUID" .raw k!"uuid" <|
    /- 735 -/ .attr k!"GID" .getValue k!"gid" <|
    /- 738 -/ .text .getValue k!"value" <|
    .nil) <|
  .nil

/-- `setSecureCommunicationProps`, `writer/arxml_writer.py:6000-6013` -/
def setSecureCommunicationProps_SECURE_COMMUNICATION_PROPS_SecureCommunicationProps : WB :=
  /- 6002 -/ .wrap .always k!"SECURE-COMMUNICATION-PROPS" (
    /- 6003 -/ .prim k!"AUTH-DATA-FRESHNESS-LENGTH" .numerical k!"authDataFreshnessLength" <|
    /- 6004 -/ .prim k!"AUTH-DATA-FRESHNESS-START-POSITION" .numerical k!"authDataFreshnessStartPosition" <|
    /- 6005 -/ .prim k!"AUTHENTICATION-BUILD-ATTEMPTS" .numerical k!"authenticationBuildAttempts" <|
    /- 6006 -/ .prim k!"AUTHENTICATION-RETRIES" .numerical k!"authenticationRetries" <|
    /- 6007 -/ .prim k!"DATA-ID" .numerical k!"dataId" <|
    /- 6008 -/ .prim k!"FRESHNESS-VALUE-ID" .numerical k!"freshnessValueId" <|
    /- 6009 -/ .prim k!"MESSAGE-LINK-LENGTH" .numerical k!"messageLinkLength" <|
    /- 6010 -/ .prim k!"MESSAGE-LINK-POSITION" .numerical k!"messageLinkPosition" <|
    /- 6011 -/ .prim k!"SECONDARY-FRESHNESS-VALUE-ID" .numerical k!"secondaryFreshnessValueId" <|
    /- 6012 -/ .prim k!"SECURED-AREA-LENGTH" .numerical k!"securedAreaLength" <|
    /- 6013 -/ .prim k!"SECURED-AREA-OFFSET" .numerical k!"securedAreaOffset" <|
    .nil) <|
  .nil

/-- `setShortNameFragment`, `writer/arxml_writer.py:844-851` -/
def setShortNameFragment_ShortNameFragment : WB :=
  /- 846 -/ .wrap .always k!"SHORT-NAME-FRAGMENT" (
    /- 847 -/ .attr k!"T" .raw k!"timestamp" <|
    /- 847 -/ .attr k!"UUID" .raw k!"uuid" <|
    /- 849 -/ .prim k!"ROLE" .raw k!"role" <|
    /- 851 -/ .prim k!"FRAGMENT" .lit k!"fragment" <|
    .nil) <|
  .nil

/-- `setSocketConnectionIpduIdentifier`, `writer/arxml_writer.py:6473-6480` -/
def setSocketConnectionIpduIdentifier_SocketConnectionIpduIdentifier : WB :=
  /- 6475 -/ .wrap .always k!"SOCKET-CONNECTION-IPDU-IDENTIFIER" (
    /- 6476 -/ .prim k!"HEADER-ID" .numerical k!"headerId" <|
    /- 6477 -/ .prim k!"PDU-COLLECTION-SEMANTICS" .lit k!"pduCollectionSemantics" <|
    /- 6478 -/ .prim k!"PDU-COLLECTION-TRIGGER" .lit k!"pduCollectionTrigger" <|
    /- 6479 -/ .prim k!"PDU-REF" .ref k!"PduRef" <|
    /- 6480 -/ .prim k!"PDU-TRIGGERING-REF" .ref k!"pduTriggeringRef" <|
    .nil) <|
  .nil

/-- `setSocketConnection`, `writer/arxml_writer.py:6491-6502` -/
def setSocketConnection_SocketConnection : WB :=
  /- 6493 -/ .wrap .always k!"SOCKET-CONNECTION" (
    /- 6494 -/ .prim k!"CLIENT-IP-ADDR-FROM-CONNECTION-REQUEST" .lit k!"clientIpAddrFromConnectionRequest" <|
    /- 6495 -/ .prim k!"CLIENT-PORT-FROM-CONNECTION-REQUEST" .lit k!"clientPortFromConnectionRequest" <|
    /- 6496 -/ .prim k!"CLIENT-PORT-REF" .ref k!"clientPortRef" <|
    /- 6484 -/ .wrap (.any [(k!"pdus", [])]) k!"PDUS" (
      /- 6487 -/ .each k!"pdus" [] .plain [⟨[(false, [k!"SocketConnectionIpduIdentifier"])], [], k!"setSocketConnectionIpduIdentifier_SocketConnectionIpduIdentifier"⟩] .unsupported <|
      .nil) <|
    /- 6498 -/ .prim k!"PDU-COLLECTION-MAX-BUFFER-SIZE" .numerical k!"pduCollectionMaxBufferSize" <|
    /- 6499 -/ .prim k!"PDU-COLLECTION-TIMEOUT" .lit k!"pduCollectionTimeout" <|
    /- 6500 -/ .prim k!"RUNTIME-IP-ADDRESS-CONFIGURATION" .lit k!"runtimeIpAddressConfiguration" <|
    /- 6501 -/ .prim k!"RUNTIME-PORT-CONFIGURATION" .lit k!"runtimePortConfiguration" <|
    /- 6502 -/ .prim k!"SHORT-LABEL" .lit k!"shortLabel" <|
    .nil) <|
  .nil

/-- `setSoftwareContext`, `writer/arxml_writer.py:4076-4080` -/
def setSoftwareContext_SoftwareContext : WB :=
  /- 4078 -/ .wrap .always k!"SOFTWARE-CONTEXT" (
    /- 4079 -/ .prim k!"INPUT" .lit k!"input" <|
    /- 4080 -/ .prim k!"STATE" .lit k!"state" <|
    .nil) <|
  .nil

/-- `setStructuredReq`, `writer/arxml_writer.py:1947-1967` -/
def setStructuredReq_StructuredReq : WB :=
  /- 1949 -/ .wrap .always k!"STRUCTURED-REQ" (
    /- 1950 -/ .attr k!"T" .raw k!"timestamp" <|
    /- 1950 -/ .attr k!"UUID" .raw k!"uuid" <|
    /- 1951 -/ .prim k!"DATE" .lit k!"date" <|
    /- 1952 -/ .prim k!"IMPORTANCE" .lit k!"importance" <|
    /- 1953 -/ .prim k!"ISSUED-BY" .lit k!"issuedBy" <|
    /- 1954 -/ .prim k!"TYPE" .lit k!"type" <|
    /- 1955 -/ .each k!"description" [] .plain [⟨[], [], k!"writeDocumentationBlock_DESCRIPTION_DocumentationBlock"⟩] .skip <|
    /- 1956 -/ .each k!"rationale" [] .plain [⟨[], [], k!"writeDocumentationBlock_RATIONALE_DocumentationBlock"⟩] .skip <|
    /- 1957 -/ .each k!"dependencies" [] .plain [⟨[], [], k!"writeDocumentationBlock_DEPENDENCIES_DocumentationBlock"⟩] .skip <|
    /- 1958 -/ .each k!"useCase" [] .plain [⟨[], [], k!"writeDocumentationBlock_USE_CASE_DocumentationBlock"⟩] .skip <|
    /- 1959 -/ .each k!"conflicts" [] .plain [⟨[], [], k!"writeDocumentationBlock_CONFLICTS_DocumentationBlock"⟩] .skip <|
    /- 1960 -/ .each k!"supportingMaterial" [] .plain [⟨[], [], k!"writeDocumentationBlock_SUPPORTING_MATERIAL_DocumentationBlock"⟩] .skip <|
    /- 1961 -/ .each k!"remark" [] .plain [⟨[], [], k!"writeDocumentationBlock_REMARK_DocumentationBlock"⟩] .skip <|
    /- 1964 -/ .wrap (.any [(k!"testedItemRefs", [])]) k!"TESTED-ITEM-REFS" (
      /- 1966 -/ .prim k!"TESTED-ITEM-REF" .getValue k!"testedItemRefs" <|
      .nil) <|
    .nil) <|
  .nil

/-- `setSubElementMapping`, `writer/arxml_writer.py:8088-8104` -/
def setSubElementMapping_SubElementMapping : WB :=
  /- 8089 -/ .wrap .always k!"SUB-ELEMENT-MAPPING" (
    /- 8092 -/ .wrap (.any [(k!"firstElement", [])]) k!"FIRST-ELEMENTS" (
      /- 8093 -/ .wrap (.any [(k!"firstElement", [])]) k!"APPLICATION-COMPOSITE-DATA-TYPE-SUB-ELEMENT-REF" (
        /- 8093 -/ .each k!"firstElement" [] .plain [⟨[], [], k!"setSubElementMapping_SubElementMapping_L8093"⟩] .skip <|
        .nil) <|
      .nil) <|
    /- 8097 -/ .wrap (.any [(k!"secondElement", [])]) k!"SECOND-ELEMENTS" (
      /- 8098 -/ .wrap (.any [(k!"secondElement", [])]) k!"APPLICATION-COMPOSITE-DATA-TYPE-SUB-ELEMENT-REF" (
        /- 8098 -/ .each k!"secondElement" [] .plain [⟨[], [], k!"setSubElementMapping_SubElementMapping_L8093"⟩] .skip <|
        .nil) <|
      .nil) <|
    /- 8102 -/ .wrap (.any [(k!"textTableMappings", [])]) k!"TEXT-TABLE-MAPPINGS" (
      /- 8104 -/ .each k!"textTableMappings" [] .plain [⟨[], [], k!"setTextTableMapping_TextTableMapping"⟩] .skip <|
      .nil) <|
    .nil) <|
  .nil

/-- `setSubElementMapping`, `writer/arxml_writer.py:8088-8104` (the block at line 8093) -/
def setSubElementMapping_SubElementMapping_L8093 : WB :=
  /- 1127 -/ .wrap .always k!"APPLICATION-COMPOSITE-ELEMENT-IREF" (
    /- 1128 -/ .prim k!"ROOT-DATA-PROTOTYPE-REF" .ref k!"rootDataPrototypeRef" <|
    /- 1129 -/ .prim k!"TARGET-DATA-PROTOTYPE-REF" .ref k!"targetDataPrototypeRef" <|
    .nil) <|
  .nil

/-- `setSwAxisGeneric`, `writer/arxml_writer.py:2035-2042` -/
def setSwAxisGeneric_SwAxisGeneric : WB :=
  /- 2036 -/ .wrap .always k!"SW-AXIS-GENERIC" (
    /- 2037 -/ .attr k!"T" .raw k!"timestamp" <|
    /- 2037 -/ .attr k!"UUID" .raw k!"uuid" <|
    /- 2038 -/ .prim k!"SW-AXIS-TYPE-REF" .ref k!"swAxisTypeRef" <|
    /- 2040 -/ .wrap (.any [(k!"swGenericAxisParams", [])]) k!"SW-GENERIC-AXIS-PARAMS" (
      /- 2042 -/ .each k!"swGenericAxisParams" [] .plain [⟨[], [], k!"setSwGenericAxisParam_SwGenericAxisParam"⟩] .skip <|
      .nil) <|
    .nil) <|
  .nil

/-- `setSwAxisGrouped`, `writer/arxml_writer.py:2051-2056` -/
def setSwAxisGrouped_SwAxisGrouped : WB :=
  /- 2052 -/ .wrap .always k!"SW-AXIS-GROUPED" (
    /- 2053 -/ .attr k!"T" .raw k!"timestamp" <|
    /- 2053 -/ .attr k!"UUID" .raw k!"uuid" <|
    /- 2054 -/ .prim k!"MAX-GRADIENT" .lit k!"maxGradient" <|
    /- 2055 -/ .prim k!"MONOTONY" .lit k!"monotony" <|
    /- 2056 -/ .prim k!"SHARED-AXIS-TYPE-REF" .ref k!"sharedAxisTypeRef" <|
    .nil) <|
  .nil

/-- `setSwAxisIndividual`, `writer/arxml_writer.py:2022-2033` -/
def setSwAxisIndividual_SwAxisIndividual : WB :=
  /- 2023 -/ .wrap .always k!"SW-AXIS-INDIVIDUAL" (
    /- 2024 -/ .attr k!"T" .raw k!"timestamp" <|
    /- 2024 -/ .attr k!"UUID" .raw k!"uuid" <|
    /- 2025 -/ .prim k!"MAX-GRADIENT" .lit k!"maxGradient" <|
    /- 2026 -/ .prim k!"MONOTONY" .lit k!"monotony" <|
    /- 2027 -/ .prim k!"INPUT-VARIABLE-TYPE-REF" .ref k!"inputVariableTypeRef" <|
    /- 2028 -/ .prim k!"COMPU-METHOD-REF" .ref k!"compuMethodRef" <|
    /- 2029 -/ .prim k!"SW-MAX-AXIS-POINTS" .numerical k!"swMaxAxisPoints" <|
    /- 2030 -/ .prim k!"SW-MIN-AXIS-POINTS" .numerical k!"swMinAxisPoints" <|
    /- 2031 -/ .prim k!"DATA-CONSTR-REF" .ref k!"dataConstrRef" <|
    /- 2033 -/ .each k!"swAxisGeneric" [] .plain [⟨[], [], k!"setSwAxisGeneric_SwAxisGeneric"⟩] .skip <|
    .nil) <|
  .nil

/-- `setSwBitRepresentation`, `writer/arxml_writer.py:2125-2130` -/
def setSwBitRepresentation_SwBitRepresentation : WB :=
  /- 2127 -/ .wrap .always k!"SW-BIT-REPRESENTATION" (
    /- 2128 -/ .attr k!"T" .raw k!"timestamp" <|
    /- 2128 -/ .attr k!"UUID" .raw k!"uuid" <|
    /- 2129 -/ .prim k!"BIT-POSITION" .numerical k!"bitPosition" <|
    /- 2130 -/ .prim k!"NUMBER-OF-BITS" .numerical k!"numberOfBits" <|
    .nil) <|
  .nil

/-- `setSwCalprmAxis`, `writer/arxml_writer.py:2058-2071` -/
def setSwCalprmAxis_SwCalprmAxis : WB :=
  /- 2060 -/ .wrap .always k!"SW-CALPRM-AXIS" (
    /- 2061 -/ .prim k!"SW-AXIS-INDEX" .lit k!"swAxisIndex" <|
    /- 2062 -/ .prim k!"CATEGORY" .lit k!"category" <|
    /- 2065 -/ .each k!"swCalprmAxisTypeProps" [] .plain [⟨[(false, [k!"SwAxisIndividual"])], [], k!"setSwAxisIndividual_SwAxisIndividual"⟩,
      ⟨[(false, [k!"SwAxisGrouped"])], [k!"SwAxisIndividual"], k!"setSwAxisGrouped_SwAxisGrouped"⟩] .unsupported <|
    /- 2070 -/ .prim k!"SW-CALIBRATION-ACCESS" .lit k!"swCalibrationAccess" <|
    /- 2071 -/ .prim k!"DISPLAY-FORMAT" .lit k!"displayFormat" <|
    .nil) <|
  .nil

/-- `setSwCalprmRefProxy`, `writer/arxml_writer.py:2156-2161` -/
def setSwCalprmRefProxy_SW_CALPRM_REF_PROXY_SwCalprmRefProxy : WB :=
  /- 2158 -/ .wrap .always k!"SW-CALPRM-REF-PROXY" (
    /- 2159 -/ .attr k!"T" .raw k!"timestamp" <|
    /- 2159 -/ .attr k!"UUID" .raw k!"uuid" <|
    /- 2160 -/ .each k!"arParameter" [] .plain [⟨[], [], k!"setAutosarParameterRef_AR_PARAMETER_AutosarParameterRef"⟩] .skip <|
    /- 2161 -/ .prim k!"MC-DATA-INSTANCE-REF" .ref k!"mcDataInstanceRef" <|
    .nil) <|
  .nil

/-- `setSwDataDefProps`, `writer/arxml_writer.py:2088-2123` -/
def setSwDataDefProps_NETWORK_REPRESENTATION_PROPS_SwDataDefProps : WB :=
  /- 2090 -/ .wrap .always k!"NETWORK-REPRESENTATION-PROPS" (
    /- 2091 -/ .attr k!"T" .raw k!"timestamp" <|
    /- 2091 -/ .attr k!"UUID" .raw k!"uuid" <|
    /- 2092 -/ .wrap .always k!"SW-DATA-DEF-PROPS-VARIANTS" (
      /- 2093 -/ .wrap .always k!"SW-DATA-DEF-PROPS-CONDITIONAL" (
        /- 2017 -/ .wrap (.any [(k!"annotations", [])]) k!"ANNOTATIONS" (
          /- 2019 -/ .each k!"annotations" [] .plain [⟨[], [], k!"writeIdentifiable_ARPackage_L2019"⟩] .skip <|
          .nil) <|
        /- 2095 -/ .prim k!"DISPLAY-PRESENTATION" .lit k!"displayPresentation" <|
        /- 2096 -/ .prim k!"BASE-TYPE-REF" .ref k!"baseTypeRef" <|
        /- 2097 -/ .prim k!"SW-ADDR-METHOD-REF" .ref k!"swAddrMethodRef" <|
        /- 2098 -/ .prim k!"SW-ALIGNMENT" .lit k!"swAlignment" <|
        /- 2099 -/ .prim k!"SW-CALIBRATION-ACCESS" .lit k!"swCalibrationAccess" <|
        /- 2100 -/ .prim k!"COMPU-METHOD-REF" .ref k!"compuMethodRef" <|
        /- 1251 -/ .wrap (.any [(k!"invalidValue", [])]) k!"INVALID-VALUE" (
          /- 1253 -/ .each k!"invalidValue" [] .plain [⟨[(false, [k!"ApplicationValueSpecification"])], [], k!"writeApplicationValueSpecification_ApplicationValueSpecification"⟩,
            ⟨[(false, [k!"ApplicationRuleBasedValueSpecification"])], [k!"ApplicationValueSpecification"], k!"writeApplicationRuleBasedValueSpecification_ApplicationRuleBasedValueSpecification"⟩,
            ⟨[(false, [k!"CompositeRuleBasedValueSpecification"])], [k!"ApplicationValueSpecification", k!"ApplicationRuleBasedValueSpecification"], k!"writeCompositeRuleBasedValueSpecification_CompositeRuleBasedValueSpecification"⟩,
            ⟨[(false, [k!"TextValueSpecification"])], [k!"ApplicationValueSpecification", k!"ApplicationRuleBasedValueSpecification", k!"CompositeRuleBasedValueSpecification"], k!"writeTextValueSpecification_TextValueSpecification"⟩,
            ⟨[(false, [k!"ConstantReference"])], [k!"ApplicationValueSpecification", k!"ApplicationRuleBasedValueSpecification", k!"CompositeRuleBasedValueSpecification", k!"TextValueSpecification"], k!"setConstantReference_ConstantReference"⟩,
            ⟨[(false, [k!"NumericalValueSpecification"])], [k!"ApplicationValueSpecification", k!"ApplicationRuleBasedValueSpecification", k!"CompositeRuleBasedValueSpecification", k!"TextValueSpecification", k!"ConstantReference"], k!"writeNumericalValueSpecification_NumericalValueSpecification"⟩,
            ⟨[(false, [k!"ArrayValueSpecification"])], [k!"ApplicationValueSpecification", k!"ApplicationRuleBasedValueSpecification", k!"CompositeRuleBasedValueSpecification", k!"TextValueSpecification", k!"ConstantReference", k!"NumericalValueSpecification"], k!"writeArrayValueSpecification_ArrayValueSpecification"⟩,
            ⟨[(false, [k!"RecordValueSpecification"])], [k!"ApplicationValueSpecification", k!"ApplicationRuleBasedValueSpecification", k!"CompositeRuleBasedValueSpecification", k!"TextValueSpecification", k!"ConstantReference", k!"NumericalValueSpecification", k!"ArrayValueSpecification"], k!"writeRecordValueSpecification_RecordValueSpecification"⟩] .unsupported <|
          .nil) <|
        /- 2102 -/ .prim k!"STEP-SIZE" .lit k!"stepSize" <|
        /- 2103 -/ .prim k!"DATA-CONSTR-REF" .ref k!"dataConstrRef" <|
        /- 2104 -/ .prim k!"IMPLEMENTATION-DATA-TYPE-REF" .ref k!"implementationDataTypeRef" <|
        /- 2077 -/ .wrap (.any [(k!"swCalprmAxisSet._swCalprmAxis", [])]) k!"SW-CALPRM-AXIS-SET" (
          /- 2079 -/ .each k!"swCalprmAxisSet._swCalprmAxis" [] .plain [⟨[], [], k!"setSwCalprmAxis_SwCalprmAxis"⟩] .skip <|
          .nil) <|
        /- 2106 -/ .each k!"swBitRepresentation" [] .plain [⟨[], [], k!"setSwBitRepresentation_SwBitRepresentation"⟩] .skip <|
        /- 2107 -/ .prim k!"SW-VALUE-BLOCK-SIZE" .numerical k!"swValueBlockSize" <|
        /- 2134 -/ .wrap (.any [(k!"swValueBlockSizeMults", [])]) k!"SW-VALUE-BLOCK-SIZE-MULTS" (
          /- 2137 -/ .oprim k!"NUMERICAL-VALUE-VARIATION-POINT" k!"V" .numerical k!"swValueBlockSizeMults" <|
          .nil) <|
        /- 2109 -/ .prim k!"SW-IMPL-POLICY" .lit k!"swImplPolicy" <|
        /- 2110 -/ .prim k!"SW-INTENDED-RESOLUTION" .numerical k!"swIntendedResolution" <|
        /- 2111 -/ .each k!"swPointerTargetProps" [] .plain [⟨[], [], k!"setSwPointerTargetProps_SW_POINTER_TARGET_PROPS_SwPointerTargetProps"⟩] .skip <|
        /- 2112 -/ .each k!"swTextProps" [] .plain [⟨[], [], k!"setSwTextProps_SwTextProps"⟩] .skip <|
        /- 2141 -/ .wrap (.any [(k!"swComparisonVariables", [])]) k!"SW-COMPARISON-VARIABLES" (
          /- 2143 -/ .each k!"swComparisonVariables" [] .plain [⟨[], [], k!"setSwVariableRefProxy_SW_VARIABLE_REF_PROXY_SwVariableRefProxy"⟩] .skip <|
          .nil) <|
        /- 2114 -/ .prim k!"SW-RECORD-LAYOUT-REF" .ref k!"swRecordLayoutRef" <|
        /- 2115 -/ .prim k!"VALUE-AXIS-DATA-TYPE-REF" .ref k!"valueAxisDataTypeRef" <|
        /- 2116 -/ .prim k!"UNIT-REF" .ref k!"unitRef" <|
        /- 2117 -/ .each k!"swDataDependency" [] .plain [⟨[], [], k!"setSwDataDependency_SwDataDependency"⟩] .skip <|
        /- 2118 -/ .prim k!"DISPLAY-FORMAT" .lit k!"displayFormat" <|
        /- 2119 -/ .prim k!"ADDITIONAL-NATIVE-TYPE-QUALIFIER" .lit k!"additionalNativeTypeQualifier" <|
        /- 2120 -/ .prim k!"SW-INTERPOLATION-METHOD" .lit k!"swInterpolationMethod" <|
        /- 2121 -/ .prim k!"SW-IS-VIRTUAL" .lit k!"swIsVirtual" <|
        /- 2122 -/ .each k!"swHostVariable" [] .plain [⟨[], [], k!"setSwHostVariable_SwVariableRefProxy"⟩] .skip <|
        /- 2123 -/ .each k!"swRefreshTiming" [] .plain [⟨[], [], k!"setMultidimensionalTime_SW_REFRESH_TIMING_MultidimensionalTime"⟩] .skip <|
        .nil) <|
      .nil) <|
    .nil) <|
  .nil

/-- `writeGeneralAnnotation`, `writer/arxml_writer.py:2010-2013` -/
def writeGeneralAnnotation_Annotation : WB :=
  /- 2011 -/ .each k!"label" [] .plain [⟨[], [], k!"setMultiLongName_LABEL_MultilanguageLongName"⟩] .skip <|
  /- 2012 -/ .prim k!"ANNOTATION-ORIGIN" .lit k!"annotationOrigin" <|
  /- 2013 -/ .each k!"annotationText" [] .plain [⟨[], [], k!"writeDocumentationBlock_ANNOTATION_TEXT_DocumentationBlock"⟩] .skip <|
  .nil

/-- `writeIdentifiable`, `writer/arxml_writer.py:996-1004` (the block at line 2019); also 4 other methods -/
def writeIdentifiable_ARPackage_L2019 : WB :=
  /- 2019 -/ .wrap .always k!"ANNOTATION" (
    /- 2020 -/ writeGeneralAnnotation_Annotation.app <|
    .nil) <|
  .nil

/-- `setSwDataDefProps`, `writer/arxml_writer.py:2088-2123` -/
def setSwDataDefProps_NETWORK_REPRESENTATION_SwDataDefProps : WB :=
  /- 2090 -/ .wrap .always k!"NETWORK-REPRESENTATION" (
    /- 2091 -/ .attr k!"T" .raw k!"timestamp" <|
    /- 2091 -/ .attr k!"UUID" .raw k!"uuid" <|
    /- 2092 -/ .wrap .always k!"SW-DATA-DEF-PROPS-VARIANTS" (
      /- 2093 -/ .wrap .always k!"SW-DATA-DEF-PROPS-CONDITIONAL" (
        /- 2017 -/ .wrap (.any [(k!"annotations", [])]) k!"ANNOTATIONS" (
          /- 2019 -/ .each k!"annotations" [] .plain [⟨[], [], k!"writeIdentifiable_ARPackage_L2019"⟩] .skip <|
          .nil) <|
        /- 2095 -/ .prim k!"DISPLAY-PRESENTATION" .lit k!"displayPresentation" <|
        /- 2096 -/ .prim k!"BASE-TYPE-REF" .ref k!"baseTypeRef" <|
        /- 2097 -/ .prim k!"SW-ADDR-METHOD-REF" .ref k!"swAddrMethodRef" <|
        /- 2098 -/ .prim k!"SW-ALIGNMENT" .lit k!"swAlignment" <|
        /- 2099 -/ .prim k!"SW-CALIBRATION-ACCESS" .lit k!"swCalibrationAccess" <|
        /- 2100 -/ .prim k!"COMPU-METHOD-REF" .ref k!"compuMethodRef" <|
        /- 1251 -/ .wrap (.any [(k!"invalidValue", [])]) k!"INVALID-VALUE" (
          /- 1253 -/ .each k!"invalidValue" [] .plain [⟨[(false, [k!"ApplicationValueSpecification"])], [], k!"writeApplicationValueSpecification_ApplicationValueSpecification"⟩,
            ⟨[(false, [k!"ApplicationRuleBasedValueSpecification"])], [k!"ApplicationValueSpecification"], k!"writeApplicationRuleBasedValueSpecification_ApplicationRuleBasedValueSpecification"⟩,
            ⟨[(false, [k!"CompositeRuleBasedValueSpecification"])], [k!"ApplicationValueSpecification", k!"ApplicationRuleBasedValueSpecification"], k!"writeCompositeRuleBasedValueSpecification_CompositeRuleBasedValueSpecification"⟩,
            ⟨[(false, [k!"TextValueSpecification"])], [k!"ApplicationValueSpecification", k!"ApplicationRuleBasedValueSpecification", k!"CompositeRuleBasedValueSpecification"], k!"writeTextValueSpecification_TextValueSpecification"⟩,
            ⟨[(false, [k!"ConstantReference"])], [k!"ApplicationValueSpecification", k!"ApplicationRuleBasedValueSpecification", k!"CompositeRuleBasedValueSpecification", k!"TextValueSpecification"], k!"setConstantReference_ConstantReference"⟩,
            ⟨[(false, [k!"NumericalValueSpecification"])], [k!"ApplicationValueSpecification", k!"ApplicationRuleBasedValueSpecification", k!"CompositeRuleBasedValueSpecification", k!"TextValueSpecification", k!"ConstantReference"], k!"writeNumericalValueSpecification_NumericalValueSpecification"⟩,
            ⟨[(false, [k!"ArrayValueSpecification"])], [k!"ApplicationValueSpecification", k!"ApplicationRuleBasedValueSpecification", k!"CompositeRuleBasedValueSpecification", k!"TextValueSpecification", k!"ConstantReference", k!"NumericalValueSpecification"], k!"writeArrayValueSpecification_ArrayValueSpecification"⟩,
            ⟨[(false, [k!"RecordValueSpecification"])], [k!"ApplicationValueSpecification", k!"ApplicationRuleBasedValueSpecification", k!"CompositeRuleBasedValueSpecification", k!"TextValueSpecification", k!"ConstantReference", k!"NumericalValueSpecification", k!"ArrayValueSpecification"], k!"writeRecordValueSpecification_RecordValueSpecification"⟩] .unsupported <|
          .nil) <|
        /- 2102 -/ .prim k!"STEP-SIZE" .lit k!"stepSize" <|
        /- 2103 -/ .prim k!"DATA-CONSTR-REF" .ref k!"dataConstrRef" <|
        /- 2104 -/ .prim k!"IMPLEMENTATION-DATA-TYPE-REF" .ref k!"implementationDataTypeRef" <|
        /- 2077 -/ .wrap (.any [(k!"swCalprmAxisSet._swCalprmAxis", [])]) k!"SW-CALPRM-AXIS-SET" (
          /- 2079 -/ .each k!"swCalprmAxisSet._swCalprmAxis" [] .plain [⟨[], [], k!"setSwCalprmAxis_SwCalprmAxis"⟩] .skip <|
          .nil) <|
        /- 2106 -/ .each k!"swBitRepresentation" [] .plain [⟨[], [], k!"setSwBitRepresentation_SwBitRepresentation"⟩] .skip <|
        /- 2107 -/ .prim k!"SW-VALUE-BLOCK-SIZE" .numerical k!"swValueBlockSize" <|
        /- 2134 -/ .wrap (.any [(k!"swValueBlockSizeMults", [])]) k!"SW-VALUE-BLOCK-SIZE-MULTS" (
          /- 2137 -/ .oprim k!"NUMERICAL-VALUE-VARIATION-POINT" k!"V" .numerical k!"swValueBlockSizeMults" <|
          .nil) <|
        /- 2109 -/ .prim k!"SW-IMPL-POLICY" .lit k!"swImplPolicy" <|
        /- 2110 -/ .prim k!"SW-INTENDED-RESOLUTION" .numerical k!"swIntendedResolution" <|
        /- 2111 -/ .each k!"swPointerTargetProps" [] .plain [⟨[], [], k!"setSwPointerTargetProps_SW_POINTER_TARGET_PROPS_SwPointerTargetProps"⟩] .skip <|
        /- 2112 -/ .each k!"swTextProps" [] .plain [⟨[], [], k!"setSwTextProps_SwTextProps"⟩] .skip <|
        /- 2141 -/ .wrap (.any [(k!"swComparisonVariables", [])]) k!"SW-COMPARISON-VARIABLES" (
          /- 2143 -/ .each k!"swComparisonVariables" [] .plain [⟨[], [], k!"setSwVariableRefProxy_SW_VARIABLE_REF_PROXY_SwVariableRefProxy"⟩] .skip <|
          .nil) <|
        /- 2114 -/ .prim k!"SW-RECORD-LAYOUT-REF" .ref k!"swRecordLayoutRef" <|
        /- 2115 -/ .prim k!"VALUE-AXIS-DATA-TYPE-REF" .ref k!"valueAxisDataTypeRef" <|
        /- 2116 -/ .prim k!"UNIT-REF" .ref k!"unitRef" <|
        /- 2117 -/ .each k!"swDataDependency" [] .plain [⟨[], [], k!"setSwDataDependency_SwDataDependency"⟩] .skip <|
        /- 2118 -/ .prim k!"DISPLAY-FORMAT" .lit k!"displayFormat" <|
        /- 2119 -/ .prim k!"ADDITIONAL-NATIVE-TYPE-QUALIFIER" .lit k!"additionalNativeTypeQualifier" <|
        /- 2120 -/ .prim k!"SW-INTERPOLATION-METHOD" .lit k!"swInterpolationMethod" <|
        /- 2121 -/ .prim k!"SW-IS-VIRTUAL" .lit k!"swIsVirtual" <|
        /- 2122 -/ .each k!"swHostVariable" [] .plain [⟨[], [], k!"setSwHostVariable_SwVariableRefProxy"⟩] .skip <|
        /- 2123 -/ .each k!"swRefreshTiming" [] .plain [⟨[], [], k!"setMultidimensionalTime_SW_REFRESH_TIMING_MultidimensionalTime"⟩] .skip <|
        .nil) <|
      .nil) <|
    .nil) <|
  .nil

/-- `setSwDataDefProps`, `writer/arxml_writer.py:2088-2123` -/
def setSwDataDefProps_PHYSICAL_PROPS_SwDataDefProps : WB :=
  /- 2090 -/ .wrap .always k!"PHYSICAL-PROPS" (
    /- 2091 -/ .attr k!"T" .raw k!"timestamp" <|
    /- 2091 -/ .attr k!"UUID" .raw k!"uuid" <|
    /- 2092 -/ .wrap .always k!"SW-DATA-DEF-PROPS-VARIANTS" (
      /- 2093 -/ .wrap .always k!"SW-DATA-DEF-PROPS-CONDITIONAL" (
        /- 2017 -/ .wrap (.any [(k!"annotations", [])]) k!"ANNOTATIONS" (
          /- 2019 -/ .each k!"annotations" [] .plain [⟨[], [], k!"writeIdentifiable_ARPackage_L2019"⟩] .skip <|
          .nil) <|
        /- 2095 -/ .prim k!"DISPLAY-PRESENTATION" .lit k!"displayPresentation" <|
        /- 2096 -/ .prim k!"BASE-TYPE-REF" .ref k!"baseTypeRef" <|
        /- 2097 -/ .prim k!"SW-ADDR-METHOD-REF" .ref k!"swAddrMethodRef" <|
        /- 2098 -/ .prim k!"SW-ALIGNMENT" .lit k!"swAlignment" <|
        /- 2099 -/ .prim k!"SW-CALIBRATION-ACCESS" .lit k!"swCalibrationAccess" <|
        /- 2100 -/ .prim k!"COMPU-METHOD-REF" .ref k!"compuMethodRef" <|
        /- 1251 -/ .wrap (.any [(k!"invalidValue", [])]) k!"INVALID-VALUE" (
          /- 1253 -/ .each k!"invalidValue" [] .plain [⟨[(false, [k!"ApplicationValueSpecification"])], [], k!"writeApplicationValueSpecification_ApplicationValueSpecification"⟩,
            ⟨[(false, [k!"ApplicationRuleBasedValueSpecification"])], [k!"ApplicationValueSpecification"], k!"writeApplicationRuleBasedValueSpecification_ApplicationRuleBasedValueSpecification"⟩,
            ⟨[(false, [k!"CompositeRuleBasedValueSpecification"])], [k!"ApplicationValueSpecification", k!"ApplicationRuleBasedValueSpecification"], k!"writeCompositeRuleBasedValueSpecification_CompositeRuleBasedValueSpecification"⟩,
            ⟨[(false, [k!"TextValueSpecification"])], [k!"ApplicationValueSpecification", k!"ApplicationRuleBasedValueSpecification", k!"CompositeRuleBasedValueSpecification"], k!"writeTextValueSpecification_TextValueSpecification"⟩,
            ⟨[(false, [k!"ConstantReference"])], [k!"ApplicationValueSpecification", k!"ApplicationRuleBasedValueSpecification", k!"CompositeRuleBasedValueSpecification", k!"TextValueSpecification"], k!"setConstantReference_ConstantReference"⟩,
            ⟨[(false, [k!"NumericalValueSpecification"])], [k!"ApplicationValueSpecification", k!"ApplicationRuleBasedValueSpecification", k!"CompositeRuleBasedValueSpecification", k!"TextValueSpecification", k!"ConstantReference"], k!"writeNumericalValueSpecification_NumericalValueSpecification"⟩,
            ⟨[(false, [k!"ArrayValueSpecification"])], [k!"ApplicationValueSpecification", k!"ApplicationRuleBasedValueSpecification", k!"CompositeRuleBasedValueSpecification", k!"TextValueSpecification", k!"ConstantReference", k!"NumericalValueSpecification"], k!"writeArrayValueSpecification_ArrayValueSpecification"⟩,
            ⟨[(false, [k!"RecordValueSpecification"])], [k!"ApplicationValueSpecification", k!"ApplicationRuleBasedValueSpecification", k!"CompositeRuleBasedValueSpecification", k!"TextValueSpecification", k!"ConstantReference", k!"NumericalValueSpecification", k!"ArrayValueSpecification"], k!"writeRecordValueSpecification_RecordValueSpecification"⟩] .unsupported <|
          .nil) <|
        /- 2102 -/ .prim k!"STEP-SIZE" .lit k!"stepSize" <|
        /- 2103 -/ .prim k!"DATA-CONSTR-REF" .ref k!"dataConstrRef" <|
        /- 2104 -/ .prim k!"IMPLEMENTATION-DATA-TYPE-REF" .ref k!"implementationDataTypeRef" <|
        /- 2077 -/ .wrap (.any [(k!"swCalprmAxisSet._swCalprmAxis", [])]) k!"SW-CALPRM-AXIS-SET" (
          /- 2079 -/ .each k!"swCalprmAxisSet._swCalprmAxis" [] .plain [⟨[], [], k!"setSwCalprmAxis_SwCalprmAxis"⟩] .skip <|
          .nil) <|
        /- 2106 -/ .each k!"swBitRepresentation" [] .plain [⟨[], [], k!"setSwBitRepresentation_SwBitRepresentation"⟩] .skip <|
        /- 2107 -/ .prim k!"SW-VALUE-BLOCK-SIZE" .numerical k!"swValueBlockSize" <|
        /- 2134 -/ .wrap (.any [(k!"swValueBlockSizeMults", [])]) k!"SW-VALUE-BLOCK-SIZE-MULTS" (
          /- 2137 -/ .oprim k!"NUMERICAL-VALUE-VARIATION-POINT" k!"V" .numerical k!"swValueBlockSizeMults" <|
          .nil) <|
        /- 2109 -/ .prim k!"SW-IMPL-POLICY" .lit k!"swImplPolicy" <|
        /- 2110 -/ .prim k!"SW-INTENDED-RESOLUTION" .numerical k!"swIntendedResolution" <|
        /- 2111 -/ .each k!"swPointerTargetProps" [] .plain [⟨[], [], k!"setSwPointerTargetProps_SW_POINTER_TARGET_PROPS_SwPointerTargetProps"⟩] .skip <|
        /- 2112 -/ .each k!"swTextProps" [] .plain [⟨[], [], k!"setSwTextProps_SwTextProps"⟩] .skip <|
        /- 2141 -/ .wrap (.any [(k!"swComparisonVariables", [])]) k!"SW-COMPARISON-VARIABLES" (
          /- 2143 -/ .each k!"swComparisonVariables" [] .plain [⟨[], [], k!"setSwVariableRefProxy_SW_VARIABLE_REF_PROXY_SwVariableRefProxy"⟩] .skip <|
          .nil) <|
        /- 2114 -/ .prim k!"SW-RECORD-LAYOUT-REF" .ref k!"swRecordLayoutRef" <|
        /- 2115 -/ .prim k!"VALUE-AXIS-DATA-TYPE-REF" .ref k!"valueAxisDataTypeRef" <|
        /- 2116 -/ .prim k!"UNIT-REF" .ref k!"unitRef" <|
        /- 2117 -/ .each k!"swDataDependency" [] .plain [⟨[], [], k!"setSwDataDependency_SwDataDependency"⟩] .skip <|
        /- 2118 -/ .prim k!"DISPLAY-FORMAT" .lit k!"displayFormat" <|
        /- 2119 -/ .prim k!"ADDITIONAL-NATIVE-TYPE-QUALIFIER" .lit k!"additionalNativeTypeQualifier" <|
        /- 2120 -/ .prim k!"SW-INTERPOLATION-METHOD" .lit k!"swInterpolationMethod" <|
        /- 2121 -/ .prim k!"SW-IS-VIRTUAL" .lit k!"swIsVirtual" <|
        /- 2122 -/ .each k!"swHostVariable" [] .plain [⟨[], [], k!"setSwHostVariable_SwVariableRefProxy"⟩] .skip <|
        /- 2123 -/ .each k!"swRefreshTiming" [] .plain [⟨[], [], k!"setMultidimensionalTime_SW_REFRESH_TIMING_MultidimensionalTime"⟩] .skip <|
        .nil) <|
      .nil) <|
    .nil) <|
  .nil

/-- `setSwDataDefProps`, `writer/arxml_writer.py:2088-2123` -/
def setSwDataDefProps_SW_DATA_DEF_PROPS_SwDataDefProps : WB :=
  /- 2090 -/ .wrap .always k!"SW-DATA-DEF-PROPS" (
    /- 2091 -/ .attr k!"T" .raw k!"timestamp" <|
    /- 2091 -/ .attr k!"UUID" .raw k!"uuid" <|
    /- 2092 -/ .wrap .always k!"SW-DATA-DEF-PROPS-VARIANTS" (
      /- 2093 -/ .wrap .always k!"SW-DATA-DEF-PROPS-CONDITIONAL" (
        /- 2017 -/ .wrap (.any [(k!"annotations", [])]) k!"ANNOTATIONS" (
          /- 2019 -/ .each k!"annotations" [] .plain [⟨[], [], k!"writeIdentifiable_ARPackage_L2019"⟩] .skip <|
          .nil) <|
        /- 2095 -/ .prim k!"DISPLAY-PRESENTATION" .lit k!"displayPresentation" <|
        /- 2096 -/ .prim k!"BASE-TYPE-REF" .ref k!"baseTypeRef" <|
        /- 2097 -/ .prim k!"SW-ADDR-METHOD-REF" .ref k!"swAddrMethodRef" <|
        /- 2098 -/ .prim k!"SW-ALIGNMENT" .lit k!"swAlignment" <|
        /- 2099 -/ .prim k!"SW-CALIBRATION-ACCESS" .lit k!"swCalibrationAccess" <|
        /- 2100 -/ .prim k!"COMPU-METHOD-REF" .ref k!"compuMethodRef" <|
        /- 1251 -/ .wrap (.any [(k!"invalidValue", [])]) k!"INVALID-VALUE" (
          /- 1253 -/ .each k!"invalidValue" [] .plain [⟨[(false, [k!"ApplicationValueSpecification"])], [], k!"writeApplicationValueSpecification_ApplicationValueSpecification"⟩,
            ⟨[(false, [k!"ApplicationRuleBasedValueSpecification"])], [k!"ApplicationValueSpecification"], k!"writeApplicationRuleBasedValueSpecification_ApplicationRuleBasedValueSpecification"⟩,
            ⟨[(false, [k!"CompositeRuleBasedValueSpecification"])], [k!"ApplicationValueSpecification", k!"ApplicationRuleBasedValueSpecification"], k!"writeCompositeRuleBasedValueSpecification_CompositeRuleBasedValueSpecification"⟩,
            ⟨[(false, [k!"TextValueSpecification"])], [k!"ApplicationValueSpecification", k!"ApplicationRuleBasedValueSpecification", k!"CompositeRuleBasedValueSpecification"], k!"writeTextValueSpecification_TextValueSpecification"⟩,
            ⟨[(false, [k!"ConstantReference"])], [k!"ApplicationValueSpecification", k!"ApplicationRuleBasedValueSpecification", k!"CompositeRuleBasedValueSpecification", k!"TextValueSpecification"], k!"setConstantReference_ConstantReference"⟩,
            ⟨[(false, [k!"NumericalValueSpecification"])], [k!"ApplicationValueSpecification", k!"ApplicationRuleBasedValueSpecification", k!"CompositeRuleBasedValueSpecification", k!"TextValueSpecification", k!"ConstantReference"], k!"writeNumericalValueSpecification_NumericalValueSpecification"⟩,
            ⟨[(false, [k!"ArrayValueSpecification"])], [k!"ApplicationValueSpecification", k!"ApplicationRuleBasedValueSpecification", k!"CompositeRuleBasedValueSpecification", k!"TextValueSpecification", k!"ConstantReference", k!"NumericalValueSpecification"], k!"writeArrayValueSpecification_ArrayValueSpecification"⟩,
            ⟨[(false, [k!"RecordValueSpecification"])], [k!"ApplicationValueSpecification", k!"ApplicationRuleBasedValueSpecification", k!"CompositeRuleBasedValueSpecification", k!"TextValueSpecification", k!"ConstantReference", k!"NumericalValueSpecification", k!"ArrayValueSpecification"], k!"writeRecordValueSpecification_RecordValueSpecification"⟩] .unsupported <|
          .nil) <|
        /- 2102 -/ .prim k!"STEP-SIZE" .lit k!"stepSize" <|
        /- 2103 -/ .prim k!"DATA-CONSTR-REF" .ref k!"dataConstrRef" <|
        /- 2104 -/ .prim k!"IMPLEMENTATION-DATA-TYPE-REF" .ref k!"implementationDataTypeRef" <|
        /- 2077 -/ .wrap (.any [(k!"swCalprmAxisSet._swCalprmAxis", [])]) k!"SW-CALPRM-AXIS-SET" (
          /- 2079 -/ .each k!"swCalprmAxisSet._swCalprmAxis" [] .plain [⟨[], [], k!"setSwCalprmAxis_SwCalprmAxis"⟩] .skip <|
          .nil) <|
        /- 2106 -/ .each k!"swBitRepresentation" [] .plain [⟨[], [], k!"setSwBitRepresentation_SwBitRepresentation"⟩] .skip <|
        /- 2107 -/ .prim k!"SW-VALUE-BLOCK-SIZE" .numerical k!"swValueBlockSize" <|
        /- 2134 -/ .wrap (.any [(k!"swValueBlockSizeMults", [])]) k!"SW-VALUE-BLOCK-SIZE-MULTS" (
          /- 2137 -/ .oprim k!"NUMERICAL-VALUE-VARIATION-POINT" k!"V" .numerical k!"swValueBlockSizeMults" <|
          .nil) <|
        /- 2109 -/ .prim k!"SW-IMPL-POLICY" .lit k!"swImplPolicy" <|
        /- 2110 -/ .prim k!"SW-INTENDED-RESOLUTION" .numerical k!"swIntendedResolution" <|
        /- 2111 -/ .each k!"swPointerTargetProps" [] .plain [⟨[], [], k!"setSwPointerTargetProps_SW_POINTER_TARGET_PROPS_SwPointerTargetProps"⟩] .skip <|
        /- 2112 -/ .each k!"swTextProps" [] .plain [⟨[], [], k!"setSwTextProps_SwTextProps"⟩] .skip <|
        /- 2141 -/ .wrap (.any [(k!"swComparisonVariables", [])]) k!"SW-COMPARISON-VARIABLES" (
          /- 2143 -/ .each k!"swComparisonVariables" [] .plain [⟨[], [], k!"setSwVariableRefProxy_SW_VARIABLE_REF_PROXY_SwVariableRefProxy"⟩] .skip <|
          .nil) <|
        /- 2114 -/ .prim k!"SW-RECORD-LAYOUT-REF" .ref k!"swRecordLayoutRef" <|
        /- 2115 -/ .prim k!"VALUE-AXIS-DATA-TYPE-REF" .ref k!"valueAxisDataTypeRef" <|
        /- 2116 -/ .prim k!"UNIT-REF" .ref k!"unitRef" <|
        /- 2117 -/ .each k!"swDataDependency" [] .plain [⟨[], [], k!"setSwDataDependency_SwDataDependency"⟩] .skip <|
        /- 2118 -/ .prim k!"DISPLAY-FORMAT" .lit k!"displayFormat" <|
        /- 2119 -/ .prim k!"ADDITIONAL-NATIVE-TYPE-QUALIFIER" .lit k!"additionalNativeTypeQualifier" <|
        /- 2120 -/ .prim k!"SW-INTERPOLATION-METHOD" .lit k!"swInterpolationMethod" <|
        /- 2121 -/ .prim k!"SW-IS-VIRTUAL" .lit k!"swIsVirtual" <|
        /- 2122 -/ .each k!"swHostVariable" [] .plain [⟨[], [], k!"setSwHostVariable_SwVariableRefProxy"⟩] .skip <|
        /- 2123 -/ .each k!"swRefreshTiming" [] .plain [⟨[], [], k!"setMultidimensionalTime_SW_REFRESH_TIMING_MultidimensionalTime"⟩] .skip <|
        .nil) <|
      .nil) <|
    .nil) <|
  .nil

/-- `setSwDataDependency`, `writer/arxml_writer.py:2163-2178` -/
def setSwDataDependency_SwDataDependency : WB :=
  /- 2165 -/ .wrap .always k!"SW-DATA-DEPENDENCY" (
    /- 2166 -/ .attr k!"T" .raw k!"timestamp" <|
    /- 2166 -/ .attr k!"UUID" .raw k!"uuid" <|
    /- 2169 -/ .each k!"swDataDependencyFormula" [] .plain [⟨[], [], k!"setSwDataDependency_SwDataDependency_L2169"⟩] .skip <|
    /- 2175 -/ .each k!"swDataDependencyArgs" [] .plain [⟨[], [], k!"setSwDataDependency_SwDataDependency_L2175"⟩] .skip <|
    .nil) <|
  .nil

/-- `setSwDataDependency`, `writer/arxml_writer.py:2163-2178` (the block at line 2169) -/
def setSwDataDependency_SwDataDependency_L2169 : WB :=
  /- 2169 -/ .wrap .always k!"SW-DATA-DEPENDENCY-FORMULA" (
    /- 2170 -/ .attr k!"T" .raw k!"timestamp" <|
    /- 2170 -/ .attr k!"UUID" .raw k!"uuid" <|
    /- 2172 -/ .attr k!"LEVEL" .getValue k!"level" <|
    .nil) <|
  .nil

/-- `setSwDataDependency`, `writer/arxml_writer.py:2163-2178` (the block at line 2175) -/
def setSwDataDependency_SwDataDependency_L2175 : WB :=
  /- 2175 -/ .wrap .always k!"SW-DATA-DEPENDENCY-ARGS" (
    /- 2176 -/ .attr k!"T" .raw k!"timestamp" <|
    /- 2176 -/ .attr k!"UUID" .raw k!"uuid" <|
    /- 2177 -/ .each k!"swCalprmRef" [] .plain [⟨[], [], k!"setSwCalprmRefProxy_SW_CALPRM_REF_PROXY_SwCalprmRefProxy"⟩] .skip <|
    /- 2178 -/ .each k!"swVariable" [] .plain [⟨[], [], k!"setSwVariableRefProxy_SW_VARIABLE_REF_PROXY_SwVariableRefProxy"⟩] .skip <|
    .nil) <|
  .nil

/-- `setSwGenericAxisParam`, `writer/arxml_writer.py:2044-2049` -/
def setSwGenericAxisParam_SwGenericAxisParam : WB :=
  /- 2045 -/ .wrap .always k!"SW-GENERIC-AXIS-PARAM" (
    /- 2046 -/ .attr k!"T" .raw k!"timestamp" <|
    /- 2046 -/ .attr k!"UUID" .raw k!"uuid" <|
    /- 2047 -/ .prim k!"SW-GENERIC-AXIS-PARAM-TYPE-REF" .ref k!"swGenericAxisParamTypeRef" <|
    /- 2049 -/ .prim k!"VF" .numerical k!"vfs" <|
    .nil) <|
  .nil

/-- `setSwVariableRefProxy`, `writer/arxml_writer.py:2149-2154` -/
def setSwVariableRefProxy_SW_HOST_VARIABLE_SwVariableRefProxy : WB :=
  /- 2151 -/ .wrap .always k!"SW-HOST-VARIABLE" (
    /- 2152 -/ .attr k!"T" .raw k!"timestamp" <|
    /- 2152 -/ .attr k!"UUID" .raw k!"uuid" <|
    /- 2153 -/ .each k!"autosarVariable" [] .plain [⟨[], [], k!"setAutosarVariableRef_AUTOSAR_VARIABLE_AutosarVariableRef"⟩] .skip <|
    /- 2154 -/ .prim k!"MC-DATA-INSTANCE-VAR-REF" .ref k!"mcDataInstanceVarRef" <|
    .nil) <|
  .nil

/-- `setSwHostVariable`, `writer/arxml_writer.py:2145-2147` -/
def setSwHostVariable_SwVariableRefProxy : WB :=
  /- 2147 -/ setSwVariableRefProxy_SW_HOST_VARIABLE_SwVariableRefProxy.app <|
  .nil

/-- `setSwPointerTargetProps`, `writer/arxml_writer.py:2081-2086` -/
def setSwPointerTargetProps_SW_POINTER_TARGET_PROPS_SwPointerTargetProps : WB :=
  /- 2083 -/ .wrap .always k!"SW-POINTER-TARGET-PROPS" (
    /- 2084 -/ .prim k!"TARGET-CATEGORY" .lit k!"targetCategory" <|
    /- 2085 -/ .each k!"swDataDefProps" [] .plain [⟨[], [], k!"setSwDataDefProps_SW_DATA_DEF_PROPS_SwDataDefProps"⟩] .skip <|
    /- 2086 -/ .prim k!"FUNCTION-POINTER-SIGNATURE-REF" .ref k!"functionPointerSignatureRef" <|
    .nil) <|
  .nil

/-- `writeSwRecordLayoutGroupSwRecordLayoutGroupContentType`, `writer/arxml_writer.py:5545-5548` -/
def writeSwRecordLayoutGroupSwRecordLayoutGroupContentType_SwRecordLayoutGroup : WB :=
  /- 5547 -/ .each k!"swRecordLayoutGroupContentType.swRecordLayoutGroup" [] .plain [⟨[], [], k!"setSwRecordLayoutGroup_SW_RECORD_LAYOUT_GROUP_SwRecordLayoutGroup"⟩] .skip <|
  /- 5548 -/ .each k!"swRecordLayoutGroupContentType.swRecordLayoutV" [] .plain [⟨[], [], k!"setSwRecordLayoutV_SW_RECORD_LAYOUT_V_SwRecordLayoutV"⟩] .skip <|
  .nil

/-- `setSwRecordLayoutGroup`, `writer/arxml_writer.py:5550-5560` -/
def setSwRecordLayoutGroup_SW_RECORD_LAYOUT_GROUP_SwRecordLayoutGroup : WB :=
  /- 5552 -/ .wrap .always k!"SW-RECORD-LAYOUT-GROUP" (
    /- 5553 -/ .prim k!"SHORT-LABEL" .lit k!"shortLabel" <|
    /- 5554 -/ .prim k!"CATEGORY" .lit k!"category" <|
    /- 5555 -/ .prim k!"SW-RECORD-LAYOUT-GROUP-AXIS" .lit k!"swRecordLayoutGroupAxis" <|
    /- 5556 -/ .prim k!"SW-RECORD-LAYOUT-GROUP-INDEX" .lit k!"swRecordLayoutGroupIndex" <|
    /- 5557 -/ .prim k!"SW-RECORD-LAYOUT-GROUP-FROM" .lit k!"swRecordLayoutGroupFrom" <|
    /- 5558 -/ .prim k!"SW-RECORD-LAYOUT-GROUP-TO" .lit k!"swRecordLayoutGroupTo" <|
    /- 5559 -/ .prim k!"SW-RECORD-LAYOUT-GROUP-STEP" .numerical k!"swRecordLayoutGroupStep" <|
    /- 5560 -/ writeSwRecordLayoutGroupSwRecordLayoutGroupContentType_SwRecordLayoutGroup.app <|
    .nil) <|
  .nil

/-- `setSwRecordLayoutV`, `writer/arxml_writer.py:5536-5543` -/
def setSwRecordLayoutV_SW_RECORD_LAYOUT_V_SwRecordLayoutV : WB :=
  /- 5538 -/ .wrap .always k!"SW-RECORD-LAYOUT-V" (
    /- 5539 -/ .prim k!"SHORT-LABEL" .lit k!"shortLabel" <|
    /- 5540 -/ .prim k!"BASE-TYPE-REF" .ref k!"baseTypeRef" <|
    /- 5541 -/ .prim k!"SW-RECORD-LAYOUT-V-AXIS" .lit k!"swRecordLayoutVAxis" <|
    /- 5542 -/ .prim k!"SW-RECORD-LAYOUT-V-PROP" .lit k!"swRecordLayoutVProp" <|
    /- 5543 -/ .prim k!"SW-RECORD-LAYOUT-V-INDEX" .lit k!"swRecordLayoutVIndex" <|
    .nil) <|
  .nil

/-- `setSwServiceArg`, `writer/arxml_writer.py:5208-5215` -/
def setSwServiceArg_RETURN_TYPE_SwServiceArg : WB :=
  /- 5211 -/ .wrap .always k!"RETURN-TYPE" (
    /- 5212 -/ writeIdentifiable_ARPackage.app <|
    /- 5213 -/ .prim k!"DIRECTION" .lit k!"direction" <|
    /- 5214 -/ .each k!"swArraysize" [] .plain [⟨[], [], k!"setValueList_SW_ARRAYSIZE_ValueList"⟩] .skip <|
    /- 5215 -/ .each k!"swDataDefProps" [] .plain [⟨[], [], k!"setSwDataDefProps_SW_DATA_DEF_PROPS_SwDataDefProps"⟩] .skip <|
    .nil) <|
  .nil

/-- `setSwServiceArg`, `writer/arxml_writer.py:5208-5215` -/
def setSwServiceArg_SW_SERVICE_ARG_SwServiceArg : WB :=
  /- 5211 -/ .wrap .always k!"SW-SERVICE-ARG" (
    /- 5212 -/ writeIdentifiable_ARPackage.app <|
    /- 5213 -/ .prim k!"DIRECTION" .lit k!"direction" <|
    /- 5214 -/ .each k!"swArraysize" [] .plain [⟨[], [], k!"setValueList_SW_ARRAYSIZE_ValueList"⟩] .skip <|
    /- 5215 -/ .each k!"swDataDefProps" [] .plain [⟨[], [], k!"setSwDataDefProps_SW_DATA_DEF_PROPS_SwDataDefProps"⟩] .skip <|
    .nil) <|
  .nil

/-- `setSwTextProps`, `writer/arxml_writer.py:2180-2187` -/
def setSwTextProps_SwTextProps : WB :=
  /- 2182 -/ .wrap .always k!"SW-TEXT-PROPS" (
    /- 2183 -/ .attr k!"T" .raw k!"timestamp" <|
    /- 2183 -/ .attr k!"UUID" .raw k!"uuid" <|
    /- 2184 -/ .prim k!"ARRAY-SIZE-SEMANTICS" .lit k!"arraySizeSemantics" <|
    /- 2185 -/ .prim k!"BASE-TYPE-REF" .ref k!"baseTypeRef" <|
    /- 2186 -/ .prim k!"SW-FILL-CHARACTER" .numerical k!"swFillCharacter" <|
    /- 2187 -/ .prim k!"SW-MAX-TEXT-SIZE" .numerical k!"swMaxTextSize" <|
    .nil) <|
  .nil

/-- `setSwValues`, `writer/arxml_writer.py:1181-1187` -/
def setSwValues_SW_VALUES_PHYS_SwValues : WB :=
  /- 1183 -/ .wrap .always k!"SW-VALUES-PHYS" (
    /- 1184 -/ .attr k!"T" .raw k!"timestamp" <|
    /- 1184 -/ .attr k!"UUID" .raw k!"uuid" <|
    /- 1186 -/ .prim k!"V" .lit k!"_v" <|
    /- 1187 -/ .prim k!"VT" .lit k!"vt" <|
    .nil) <|
  .nil

/-- `setSwVariableRefProxy`, `writer/arxml_writer.py:2149-2154` -/
def setSwVariableRefProxy_SW_VARIABLE_REF_PROXY_SwVariableRefProxy : WB :=
  /- 2151 -/ .wrap .always k!"SW-VARIABLE-REF-PROXY" (
    /- 2152 -/ .attr k!"T" .raw k!"timestamp" <|
    /- 2152 -/ .attr k!"UUID" .raw k!"uuid" <|
    /- 2153 -/ .each k!"autosarVariable" [] .plain [⟨[], [], k!"setAutosarVariableRef_AUTOSAR_VARIABLE_AutosarVariableRef"⟩] .skip <|
    /- 2154 -/ .prim k!"MC-DATA-INSTANCE-VAR-REF" .ref k!"mcDataInstanceVarRef" <|
    .nil) <|
  .nil

/-- `setSwcBswRunnableMapping`, `writer/arxml_writer.py:5244-5247` -/
def setSwcBswRunnableMapping_SwcBswRunnableMapping : WB :=
  /- 5245 -/ .wrap .always k!"SWC-BSW-RUNNABLE-MAPPING" (
    /- 5246 -/ .prim k!"BSW-ENTITY-REF" .ref k!"bswEntityRef" <|
    /- 5247 -/ .prim k!"SWC-RUNNABLE-REF" .ref k!"swcRunnableRef" <|
    .nil) <|
  .nil

/-- `setSwcToEcuMapping`, `writer/arxml_writer.py:7925-7933` -/
def setSwcToEcuMapping_SwcToEcuMapping : WB :=
  /- 7926 -/ .wrap .always k!"SWC-TO-ECU-MAPPING" (
    /- 7927 -/ writeIdentifiable_ARPackage.app <|
    /- 7930 -/ .wrap (.any [(k!"componentIRefs", [])]) k!"COMPONENT-IREFS" (
      /- 7932 -/ .each k!"componentIRefs" [] .plain [⟨[], [], k!"setComponentInSystemInstanceRef_COMPONENT_IREF_ComponentInSystemInstanceRef"⟩] .skip <|
      .nil) <|
    /- 7933 -/ .prim k!"ECU-INSTANCE-REF" .ref k!"ecuInstanceRef" <|
    .nil) <|
  .nil

/-- `setSynchronousServerCallPoint`, `writer/arxml_writer.py:2912-2915` -/
def setSynchronousServerCallPoint_SynchronousServerCallPoint : WB :=
  /- 2913 -/ .wrap .always k!"SYNCHRONOUS-SERVER-CALL-POINT" (
    /- 2914 -/ writeIdentifiable_ARPackage.app <|
    /- 2915 -/ setServerCallPoint_ServerCallPoint.app <|
    .nil) <|
  .nil

/-- `setTargetIPduRef`, `writer/arxml_writer.py:8190-8193` -/
def setTargetIPduRef_TARGET_I_PDU_TargetIPduRef : WB :=
  /- 8192 -/ .wrap .always k!"TARGET-I-PDU" (
    /- 8193 -/ .prim k!"TARGET-I-PDU-REF" .ref k!"targetIPdu" <|
    .nil) <|
  .nil

/-- `setTextTableMapping`, `writer/arxml_writer.py:8106-8111` -/
def setTextTableMapping_TextTableMapping : WB :=
  /- 8107 -/ .wrap .always k!"TEXT-TABLE-MAPPING" (
    /- 8108 -/ .prim k!"BITFIELD-TEXT-TABLE-MASK-FIRST" .numerical k!"bitfieldTextTableMaskFirst" <|
    /- 8109 -/ .prim k!"BITFIELD-TEXT-TABLE-MASK-SECOND" .numerical k!"bitfieldTextTableMaskSecond" <|
    /- 8110 -/ .prim k!"IDENTICAL-MAPPING" .lit k!"identicalMapping" <|
    /- 8111 -/ .prim k!"MAPPING-DIRECTION" .lit k!"mappingDirection" <|
    .nil) <|
  .nil

/-- `setTimeRangeType`, `writer/arxml_writer.py:9102-9105` -/
def setTimeRangeType_REPETITION_PERIOD_TimeRangeType : WB :=
  /- 9104 -/ .wrap .always k!"REPETITION-PERIOD" (
    /- 9105 -/ .prim k!"VALUE" .lit k!"value" <|
    .nil) <|
  .nil

/-- `setTimeRangeType`, `writer/arxml_writer.py:9102-9105` -/
def setTimeRangeType_TIME_OFFSET_TimeRangeType : WB :=
  /- 9104 -/ .wrap .always k!"TIME-OFFSET" (
    /- 9105 -/ .prim k!"VALUE" .lit k!"value" <|
    .nil) <|
  .nil

/-- `setTimeRangeType`, `writer/arxml_writer.py:9102-9105` -/
def setTimeRangeType_TIME_PERIOD_TimeRangeType : WB :=
  /- 9104 -/ .wrap .always k!"TIME-PERIOD" (
    /- 9105 -/ .prim k!"VALUE" .lit k!"value" <|
    .nil) <|
  .nil

/-- `setTpPort`, `writer/arxml_writer.py:6531-6535` -/
def setTpPort_TCP_TP_PORT_TpPort : WB :=
  /- 6533 -/ .wrap .always k!"TCP-TP-PORT" (
    /- 6534 -/ .prim k!"DYNAMICALLY-ASSIGNED" .lit k!"dynamicallyAssigned" <|
    /- 6535 -/ .prim k!"PORT-NUMBER" .numerical k!"portNumber" <|
    .nil) <|
  .nil

/-- `setTpPort`, `writer/arxml_writer.py:6531-6535` -/
def setTpPort_UDP_TP_PORT_TpPort : WB :=
  /- 6533 -/ .wrap .always k!"UDP-TP-PORT" (
    /- 6534 -/ .prim k!"DYNAMICALLY-ASSIGNED" .lit k!"dynamicallyAssigned" <|
    /- 6535 -/ .prim k!"PORT-NUMBER" .numerical k!"portNumber" <|
    .nil) <|
  .nil

/-- `setTraceableText`, `writer/arxml_writer.py:1935-1945` -/
def setTraceableText_TRACE_TraceableText : WB :=
  /- 1937 -/ .wrap .always k!"TRACE" (
    /- 1938 -/ .attr k!"T" .raw k!"timestamp" <|
    /- 1938 -/ .attr k!"UUID" .raw k!"uuid" <|
    /- 1939 -/ .each k!"text" [] .plain [⟨[], [], k!"writeDocumentationBlock_TEXT_DocumentationBlock"⟩] .skip <|
    /- 1942 -/ .wrap (.any [(k!"traceRefs", [])]) k!"TRACE-REFS" (
      /- 1944 -/ .prim k!"TRACE-REF" .getValue k!"traceRefs" <|
      .nil) <|
    .nil) <|
  .nil

/-- `setTransientFault`, `writer/arxml_writer.py:3784-3791` -/
def setTransientFault_TransientFault : WB :=
  /- 3785 -/ .wrap .always k!"TRANSIENT-FAULT" (
    /- 3786 -/ writeTracedFailure_TracedFailure.app <|
    /- 3789 -/ .wrap (.any [(k!"possibleErrorReactions", [])]) k!"POSSIBLE-ERROR-REACTIONS" (
      /- 3791 -/ .each k!"possibleErrorReactions" [] .plain [⟨[], [], k!"setPossibleErrorReaction_PossibleErrorReaction"⟩] .skip <|
      .nil) <|
    .nil) <|
  .nil

/-- `setTransmissionModeDeclaration`, `writer/arxml_writer.py:9126-9131` -/
def setTransmissionModeDeclaration_TRANSMISSION_MODE_DECLARATION_TransmissionModeDeclaration : WB :=
  /- 9128 -/ .wrap .always k!"TRANSMISSION-MODE-DECLARATION" (
    /- 9096 -/ .wrap (.any [(k!"transmissionModeConditions", [])]) k!"TRANSMISSION-MODE-CONDITIONS" (
      /- 9098 -/ .each k!"transmissionModeConditions" [] .plain [⟨[], [], k!"setTransmissionModeDeclaration_TRANSMISSION_MODE_DECLARATION_TransmissionModeDeclaration_L9098"⟩] .skip <|
      .nil) <|
    /- 9130 -/ .each k!"transmissionModeFalseTiming" [] .plain [⟨[], [], k!"setTransmissionModeTiming_TRANSMISSION_MODE_FALSE_TIMING_TransmissionModeTiming"⟩] .skip <|
    /- 9131 -/ .each k!"transmissionModeTrueTiming" [] .plain [⟨[], [], k!"setTransmissionModeTiming_TRANSMISSION_MODE_TRUE_TIMING_TransmissionModeTiming"⟩] .skip <|
    .nil) <|
  .nil

/-- `setTransmissionModeDeclaration`, `writer/arxml_writer.py:9126-9131` (the block at line 9098) -/
def setTransmissionModeDeclaration_TRANSMISSION_MODE_DECLARATION_TransmissionModeDeclaration_L9098 : WB :=
  /- 9098 -/ .wrap .always k!"TRANSMISSION-MODE-CONDITION" (
    /- 9099 -/ .each k!"dataFilter" [] .plain [⟨[], [], k!"setDataFilter_DATA_FILTER_DataFilter"⟩] .skip <|
    /- 9100 -/ .prim k!"I-SIGNAL-IN-I-PDU-REF" .ref k!"iSignalInIPduRef" <|
    .nil) <|
  .nil

/-- `setTransmissionModeTiming`, `writer/arxml_writer.py:9119-9124` -/
def setTransmissionModeTiming_TRANSMISSION_MODE_FALSE_TIMING_TransmissionModeTiming : WB :=
  /- 9122 -/ .wrap .always k!"TRANSMISSION-MODE-FALSE-TIMING" (
    /- 9123 -/ .each k!"cyclicTiming" [] .plain [⟨[], [], k!"setCyclicTiming_CYCLIC_TIMING_CyclicTiming"⟩] .skip <|
    /- 9124 -/ .each k!"eventControlledTiming" [] .plain [⟨[], [], k!"setEventControlledTiming_EVENT_CONTROLLED_TIMING_EventControlledTiming"⟩] .skip <|
    .nil) <|
  .nil

/-- `setTransmissionModeTiming`, `writer/arxml_writer.py:9119-9124` -/
def setTransmissionModeTiming_TRANSMISSION_MODE_TRUE_TIMING_TransmissionModeTiming : WB :=
  /- 9122 -/ .wrap .always k!"TRANSMISSION-MODE-TRUE-TIMING" (
    /- 9123 -/ .each k!"cyclicTiming" [] .plain [⟨[], [], k!"setCyclicTiming_CYCLIC_TIMING_CyclicTiming"⟩] .skip <|
    /- 9124 -/ .each k!"eventControlledTiming" [] .plain [⟨[], [], k!"setEventControlledTiming_EVENT_CONTROLLED_TIMING_EventControlledTiming"⟩] .skip <|
    .nil) <|
  .nil

/-- `setTt`, `writer/arxml_writer.py:903-909` -/
def setTt_TT_Tt : WB :=
  /- 904 -/ .wrap .always k!"TT" (
    /- 906 -/ .attr k!"TYPE" .getValue k!"type" <|
    /- 908 -/ .attr k!"TEX-RENDER" .getValue k!"texRender" <|
    /- 909 -/ .text .getValue k!"value" <|
    .nil) <|
  .nil

/-- `setValueList`, `writer/arxml_writer.py:1189-1193` -/
def setValueList_SW_ARRAYSIZE_ValueList : WB :=
  /- 1191 -/ .wrap .always k!"SW-ARRAYSIZE" (
    /- 1192 -/ .attr k!"T" .raw k!"timestamp" <|
    /- 1192 -/ .attr k!"UUID" .raw k!"uuid" <|
    /- 1193 -/ .prim k!"V" .lit k!"v" <|
    .nil) <|
  .nil

/-- `setVariableDataPrototypeInSystemInstanceRef`, `writer/arxml_writer.py:4579-4586` -/
def setVariableDataPrototypeInSystemInstanceRef_DATA_ELEMENT_IREF_VariableDataPrototypeInSystemInstanceRef : WB :=
  /- 4581 -/ .wrap .always k!"DATA-ELEMENT-IREF" (
    /- 4583 -/ .prim k!"CONTEXT-COMPONENT-REF" .ref k!"contextComponentRefs" <|
    /- 4584 -/ .prim k!"CONTEXT-COMPOSITION-REF" .ref k!"contextCompositionRef" <|
    /- 4585 -/ .prim k!"CONTEXT-PORT-REF" .ref k!"contextPortRef" <|
    /- 4586 -/ .prim k!"TARGET-DATA-PROTOTYPE-REF" .ref k!"targetDataPrototypeRef" <|
    .nil) <|
  .nil

/-- `setVariableDataPrototypeInSystemInstanceRef`, `writer/arxml_writer.py:4579-4586` -/
def setVariableDataPrototypeInSystemInstanceRef_RECEIVER_IREF_VariableDataPrototypeInSystemInstanceRef : WB :=
  /- 4581 -/ .wrap .always k!"RECEIVER-IREF" (
    /- 4583 -/ .prim k!"CONTEXT-COMPONENT-REF" .ref k!"contextComponentRefs" <|
    /- 4584 -/ .prim k!"CONTEXT-COMPOSITION-REF" .ref k!"contextCompositionRef" <|
    /- 4585 -/ .prim k!"CONTEXT-PORT-REF" .ref k!"contextPortRef" <|
    /- 4586 -/ .prim k!"TARGET-DATA-PROTOTYPE-REF" .ref k!"targetDataPrototypeRef" <|
    .nil) <|
  .nil

/-- `setVariableDataPrototypeInSystemInstanceRef`, `writer/arxml_writer.py:4579-4586` -/
def setVariableDataPrototypeInSystemInstanceRef_SENDER_IREF_VariableDataPrototypeInSystemInstanceRef : WB :=
  /- 4581 -/ .wrap .always k!"SENDER-IREF" (
    /- 4583 -/ .prim k!"CONTEXT-COMPONENT-REF" .ref k!"contextComponentRefs" <|
    /- 4584 -/ .prim k!"CONTEXT-COMPOSITION-REF" .ref k!"contextCompositionRef" <|
    /- 4585 -/ .prim k!"CONTEXT-PORT-REF" .ref k!"contextPortRef" <|
    /- 4586 -/ .prim k!"TARGET-DATA-PROTOTYPE-REF" .ref k!"targetDataPrototypeRef" <|
    .nil) <|
  .nil

/-- `setVariableDataPrototypeInSystemInstanceRef`, `writer/arxml_writer.py:4579-4586` -/
def setVariableDataPrototypeInSystemInstanceRef_TRANSLATION_TARGET_VariableDataPrototypeInSystemInstanceRef : WB :=
  /- 4581 -/ .wrap .always k!"TRANSLATION-TARGET" (
    /- 4583 -/ .prim k!"CONTEXT-COMPONENT-REF" .ref k!"contextComponentRefs" <|
    /- 4584 -/ .prim k!"CONTEXT-COMPOSITION-REF" .ref k!"contextCompositionRef" <|
    /- 4585 -/ .prim k!"CONTEXT-PORT-REF" .ref k!"contextPortRef" <|
    /- 4586 -/ .prim k!"TARGET-DATA-PROTOTYPE-REF" .ref k!"targetDataPrototypeRef" <|
    .nil) <|
  .nil

/-- `setVariableInAtomicSWCTypeInstanceRef`, `writer/arxml_writer.py:2710-2715` -/
def setVariableInAtomicSWCTypeInstanceRef_AUTOSAR_VARIABLE_IREF_VariableInAtomicSWCTypeInstanceRef : WB :=
  /- 2712 -/ .wrap .always k!"AUTOSAR-VARIABLE-IREF" (
    /- 2713 -/ .attr k!"T" .raw k!"timestamp" <|
    /- 2713 -/ .attr k!"UUID" .raw k!"uuid" <|
    /- 2714 -/ .prim k!"PORT-PROTOTYPE-REF" .ref k!"portPrototypeRef" <|
    /- 2715 -/ .prim k!"TARGET-DATA-PROTOTYPE-REF" .ref k!"targetDataPrototypeRef" <|
    .nil) <|
  .nil

/-- `setWorstCaseStackUsage`, `writer/arxml_writer.py:4225-4229` -/
def setWorstCaseStackUsage_WorstCaseStackUsage : WB :=
  /- 4227 -/ .wrap .always k!"WORST-CASE-STACK-USAGE" (
    /- 4228 -/ setStackUsage_StackUsage.app <|
    /- 4229 -/ .prim k!"MEMORY-CONSUMPTION" .numerical k!"memoryConsumption" <|
    .nil) <|
  .nil

end Verif.Gen.W
