import Verif.Gen.Read5
-- generated by tools/gen_codec.py; do not edit
namespace Verif.Gen.R
open Verif Verif.Model

/-- `readEcuInstanceCommControllers`, `parser/arxml_parser.py:8108-8125` (the `LinMaster` it makes) -/
def readEcuInstanceCommControllers_LinMaster : List RSlot :=
  [/- 8119 -/ { field := k!"short_name", path := (.first [k!"SHORT-NAME"] .nil), item := .name, req := .always }] ++
  /- 8120 -/ readLinMaster

/-- `readEcuInstanceConnectors`, `parser/arxml_parser.py:8184-8201` (the `CanCommunicationConnector` it makes) -/
def readEcuInstanceConnectors_CanCommunicationConnector : List RSlot :=
  [/- 8189 -/ { field := k!"short_name", path := (.first [k!"SHORT-NAME"] .nil), item := .name, req := .always }] ++
  /- 8190 -/ readCanCommunicationConnector

/-- `readEthernetCommunicationConnectorNetworkEndpointRefs`, `parser/arxml_parser.py:8169-8171` -/
def readEthernetCommunicationConnectorNetworkEndpointRefs : List RSlot :=
  [/- 8171 -/ { field := k!"networkEndpointRefs", path := (.all k!"NETWORK-ENDPOINT-REFS" (.all k!"NETWORK-ENDPOINT-REF" .nil)), item := (.prim .ref) }]

/-- `readEthernetCommunicationConnector`, `parser/arxml_parser.py:8173-8176` -/
def readEthernetCommunicationConnector : List RSlot :=
  /- 8174 -/ readCommunicationConnector ++
  [/- 8175 -/ { field := k!"maximumTransmissionUnit", path := (.first [k!"MAXIMUM-TRANSMISSION-UNIT"] .nil), item := (.prim .positive) }] ++
  /- 8176 -/ readEthernetCommunicationConnectorNetworkEndpointRefs

/-- `readEcuInstanceConnectors`, `parser/arxml_parser.py:8184-8201` (the `EthernetCommunicationConnector` it makes) -/
def readEcuInstanceConnectors_EthernetCommunicationConnector : List RSlot :=
  [/- 8192 -/ { field := k!"short_name", path := (.first [k!"SHORT-NAME"] .nil), item := .name, req := .always }] ++
  /- 8193 -/ readEthernetCommunicationConnector

/-- `readEcuMapping`, `parser/arxml_parser.py:8786-8789` -/
def readEcuMapping : List RSlot :=
  /- 8787 -/ readIdentifiable ++
  [/- 8788 -/ { field := k!"ecuInstanceRef", path := (.first [k!"ECU-INSTANCE-REF"] .nil), item := (.prim .ref) },
   /- 8789 -/ { field := k!"ecuRef", path := (.first [k!"ECU-REF"] .nil), item := (.prim .ref) }]

/-- `readEcucCommonAttributes`, `parser/arxml_parser.py:7535-7544` -/
def readEcucCommonAttributes : List RSlot :=
  /- 7536 -/ readEcucDefinitionElement ++
  [/- 7387 -/ { field := 0, path := (.all k!"MULTIPLICITY-CONFIG-CLASSES" (.all 0 .nil)), item := (.guard [k!"ECUC-MULTIPLICITY-CONFIGURATION-CLASS"] .unsupported) },
   /- 7538 -/ { field := k!"multiplicityConfigClasses", path := (.all k!"MULTIPLICITY-CONFIG-CLASSES" (.all k!"ECUC-MULTIPLICITY-CONFIGURATION-CLASS" .nil)), item := (.objs [(k!"ECUC-MULTIPLICITY-CONFIGURATION-CLASS", k!"getEcucMultiplicityConfigurationClasses_EcucMultiplicityConfigurationClass")]) },
   /- 7539 -/ { field := k!"origin", path := (.first [k!"ORIGIN"] .nil), item := (.prim .lit) },
   /- 7540 -/ { field := k!"postBuildVariantMultiplicity", path := (.first [k!"POST-BUILD-VARIANT-MULTIPLICITY"] .nil), item := (.prim .boolean) },
   /- 7541 -/ { field := k!"postBuildVariantValue", path := (.first [k!"POST-BUILD-VARIANT-VALUE"] .nil), item := (.prim .boolean) },
   /- 7542 -/ { field := k!"requiresIndex", path := (.first [k!"REQUIRES-INDEX"] .nil), item := (.prim .boolean) },
   /- 7532 -/ { field := 0, path := (.all k!"VALUE-CONFIG-CLASSES" (.all 0 .nil)), item := (.guard [k!"ECUC-VALUE-CONFIGURATION-CLASS"] .unsupported) },
   /- 7544 -/ { field := k!"valueConfigClasses", path := (.all k!"VALUE-CONFIG-CLASSES" (.all k!"ECUC-VALUE-CONFIGURATION-CLASS" .nil)), item := (.objs [(k!"ECUC-VALUE-CONFIGURATION-CLASS", k!"getEcucValueConfigurationClasses_EcucValueConfigurationClass")]) }]

/-- `readEcucAbstractReferenceDef`, `parser/arxml_parser.py:7712-7714` -/
def readEcucAbstractReferenceDef : List RSlot :=
  /- 7713 -/ readEcucCommonAttributes ++
  [/- 7714 -/ { field := k!"withAuto", path := (.first [k!"WITH-AUTO"] .nil), item := (.prim .boolean) }]

/-- `readEcucAbstractExternalReferenceDef`, `parser/arxml_parser.py:7720-7721` -/
def readEcucAbstractExternalReferenceDef : List RSlot :=
  /- 7721 -/ readEcucAbstractReferenceDef

/-- `readEcucAbstractInternalReferenceDef`, `parser/arxml_parser.py:7716-7718` -/
def readEcucAbstractInternalReferenceDef : List RSlot :=
  /- 7717 -/ readEcucAbstractReferenceDef ++
  [/- 7718 -/ { field := k!"requiresSymbolicNameValue", path := (.first [k!"REQUIRES-SYMBOLIC-NAME-VALUE"] .nil), item := (.prim .boolean) }]

/-- `readEcucParameterDef`, `parser/arxml_parser.py:7546-7550` -/
def readEcucParameterDef : List RSlot :=
  /- 7547 -/ readEcucCommonAttributes ++
  [/- 7548 -/ { field := k!"derivation", path := (.first [k!"DERIVATION"] .nil), item := (.objs [(k!"DERIVATION", k!"readEcucDerivationSpecification_EcucDerivationSpecification")]) },
   /- 7549 -/ { field := k!"symbolicNameValue", path := (.first [k!"SYMBOLIC-NAME-VALUE"] .nil), item := (.prim .boolean) },
   /- 7550 -/ { field := k!"withAuto", path := (.first [k!"WITH-AUTO"] .nil), item := (.prim .boolean) }]

/-- `readEcucBooleanParamDef`, `parser/arxml_parser.py:7617-7619` -/
def readEcucBooleanParamDef : List RSlot :=
  /- 7618 -/ readEcucParameterDef ++
  [/- 7619 -/ { field := k!"defaultValue", path := (.first [k!"DEFAULT-VALUE"] .nil), item := (.prim .boolean) }]

/-- `readEcucContainerDef`, `parser/arxml_parser.py:7390-7402` -/
def readEcucContainerDef : List RSlot :=
  /- 7391 -/ readEcucDefinitionElement ++
  [/- 7417 -/ { field := 0, path := (.all k!"DESTINATION-URI-REFS" (.all 0 .nil)), item := (.guard [k!"DESTINATION-URI-REF"] .unsupported) },
   /- 7393 -/ { field := k!"destinationUriRefs", path := (.all k!"DESTINATION-URI-REFS" (.all k!"DESTINATION-URI-REF" .nil)), item := (.objs [(k!"DESTINATION-URI-REF", k!"getEcucDestinationUriRefs_EcucDestinationUriDefRefType")]) },
   /- 7387 -/ { field := 0, path := (.all k!"MULTIPLICITY-CONFIG-CLASSES" (.all 0 .nil)), item := (.guard [k!"ECUC-MULTIPLICITY-CONFIGURATION-CLASS"] .unsupported) },
   /- 7395 -/ { field := k!"multiplicityConfigClasses", path := (.all k!"MULTIPLICITY-CONFIG-CLASSES" (.all k!"ECUC-MULTIPLICITY-CONFIGURATION-CLASS" .nil)), item := (.objs [(k!"ECUC-MULTIPLICITY-CONFIGURATION-CLASS", k!"getEcucMultiplicityConfigurationClasses_EcucMultiplicityConfigurationClass")]) },
   /- 7396 -/ { field := k!"postBuildVariantMultiplicity", path := (.first [k!"POST-BUILD-VARIANT-MULTIPLICITY"] .nil), item := (.prim .boolean) },
   /- 7397 -/ { field := k!"requiresIndex", path := (.first [k!"REQUIRES-INDEX"] .nil), item := (.prim .boolean) },
   /- 7402 -/ { field := k!"origin", path := (.first [k!"ORIGIN"] .nil), item := (.prim .litPlain) }]

/-- `readEcucChoiceContainerDefChoices`, `parser/arxml_parser.py:7777-7784` -/
def readEcucChoiceContainerDefChoices : List RSlot :=
  [/- 7781 -/ { field := k!"choices", path := (.all k!"CHOICES" (.all k!"ECUC-PARAM-CONF-CONTAINER-DEF" .nil)), item := (.objs [(k!"ECUC-PARAM-CONF-CONTAINER-DEF", k!"readEcucModuleDefContainers_EcucParamConfContainerDef")]), elems := true, named := true },
   /- 7784 -/ { field := 0, path := (.all k!"CHOICES" (.all 0 .nil)), item := (.guard [k!"ECUC-PARAM-CONF-CONTAINER-DEF"] .unsupported) }]

/-- `readEcucChoiceContainerDef`, `parser/arxml_parser.py:7786-7788` -/
def readEcucChoiceContainerDef : List RSlot :=
  /- 7787 -/ readEcucContainerDef ++
  /- 7788 -/ readEcucChoiceContainerDefChoices

/-- `readEcucContainerDefParameters`, `parser/arxml_parser.py:7685-7710` -/
def readEcucContainerDefParameters : List RSlot :=
  [/- 7689 -/ { field := k!"parameters", path := (.all k!"PARAMETERS" (.all 0 .nil)), item := (.objs [(k!"ECUC-BOOLEAN-PARAM-DEF", k!"readEcucContainerDefParameters_EcucBooleanParamDef"), (k!"ECUC-STRING-PARAM-DEF", k!"readEcucContainerDefParameters_EcucStringParamDef"), (k!"ECUC-INTEGER-PARAM-DEF", k!"readEcucContainerDefParameters_EcucIntegerParamDef"), (k!"ECUC-FLOAT-PARAM-DEF", k!"readEcucContainerDefParameters_EcucFloatParamDef"), (k!"ECUC-ENUMERATION-PARAM-DEF", k!"readEcucContainerDefParameters_EcucEnumerationParamDef"), (k!"ECUC-FUNCTION-NAME-DEF", k!"readEcucContainerDefParameters_EcucFunctionNameDef"), (k!"ECUC-MULTILINE-STRING-PARAM-DEF", k!"readEcucContainerDefParameters_EcucMultilineStringParamDef")]), elems := true, named := true },
   /- 7710 -/ { field := 0, path := (.all k!"PARAMETERS" (.all 0 .nil)), item := (.guard [k!"ECUC-BOOLEAN-PARAM-DEF", k!"ECUC-STRING-PARAM-DEF", k!"ECUC-INTEGER-PARAM-DEF", k!"ECUC-FLOAT-PARAM-DEF", k!"ECUC-ENUMERATION-PARAM-DEF", k!"ECUC-FUNCTION-NAME-DEF", k!"ECUC-MULTILINE-STRING-PARAM-DEF"] .unsupported) }]

/-- `readEcucContainerDefReferences`, `parser/arxml_parser.py:7741-7757` -/
def readEcucContainerDefReferences : List RSlot :=
  [/- 7745 -/ { field := k!"references", path := (.all k!"REFERENCES" (.all 0 .nil)), item := (.objs [(k!"ECUC-SYMBOLIC-NAME-REFERENCE-DEF", k!"readEcucContainerDefReferences_EcucSymbolicNameReferenceDef"), (k!"ECUC-REFERENCE-DEF", k!"readEcucContainerDefReferences_EcucReferenceDef"), (k!"ECUC-CHOICE-REFERENCE-DEF", k!"readEcucContainerDefReferences_EcucChoiceReferenceDef"), (k!"ECUC-INSTANCE-REFERENCE-DEF", k!"readEcucContainerDefReferences_EcucInstanceReferenceDef")]), elems := true, named := true },
   /- 7757 -/ { field := 0, path := (.all k!"REFERENCES" (.all 0 .nil)), item := (.guard [k!"ECUC-SYMBOLIC-NAME-REFERENCE-DEF", k!"ECUC-REFERENCE-DEF", k!"ECUC-CHOICE-REFERENCE-DEF", k!"ECUC-INSTANCE-REFERENCE-DEF"] .unsupported) }]

/-- `readEcucContainerDefSubContainers`, `parser/arxml_parser.py:7759-7769` -/
def readEcucContainerDefSubContainers : List RSlot :=
  [/- 7763 -/ { field := k!"subContainers", path := (.all k!"SUB-CONTAINERS" (.all 0 .nil)), item := (.objs [(k!"ECUC-PARAM-CONF-CONTAINER-DEF", k!"readEcucModuleDefContainers_EcucParamConfContainerDef"), (k!"ECUC-CHOICE-CONTAINER-DEF", k!"readEcucModuleDefContainers_EcucChoiceContainerDef")]), elems := true, named := true },
   /- 7769 -/ { field := 0, path := (.all k!"SUB-CONTAINERS" (.all 0 .nil)), item := (.guard [k!"ECUC-PARAM-CONF-CONTAINER-DEF", k!"ECUC-CHOICE-CONTAINER-DEF"] .unsupported) }]

/-- `readEcucParamConfContainerDef`, `parser/arxml_parser.py:7771-7775` -/
def readEcucParamConfContainerDef : List RSlot :=
  /- 7772 -/ readEcucContainerDef ++
  /- 7773 -/ readEcucContainerDefParameters ++
  /- 7774 -/ readEcucContainerDefReferences ++
  /- 7775 -/ readEcucContainerDefSubContainers

/-- `readEcucModuleDefContainers`, `parser/arxml_parser.py:7790-7800` (the `EcucParamConfContainerDef` it makes); also `readEcucChoiceContainerDefChoices`, `readEcucContainerDefSubContainers`, `readEcucDestinationUriPolicyContainers` -/
def readEcucModuleDefContainers_EcucParamConfContainerDef : List RSlot :=
  [/- 7794 -/ { field := k!"short_name", path := (.first [k!"SHORT-NAME"] .nil), item := .name, req := .always }] ++
  /- 7795 -/ readEcucParamConfContainerDef

/-- `readEcucChoiceReferenceDef`, `parser/arxml_parser.py:7731-7734` -/
def readEcucChoiceReferenceDef : List RSlot :=
  /- 7732 -/ readEcucAbstractInternalReferenceDef ++
  [/- 7734 -/ { field := k!"destinationRefs", path := (.all k!"DESTINATION-REFS" (.all k!"DESTINATION-REF" .nil)), item := (.prim .ref) }]

/-- `readEcucConditionFormula`, `parser/arxml_parser.py:7572-7576` (the `EcucConditionFormula` it makes); also `readEcucParameterDerivationFormula` -/
def readEcucConditionFormula_EcucConditionFormula : List RSlot :=
  [/- 7574 -/ { field := k!"ecucQueryRef", path := (.first [k!"ECUC-QUERY-REF"] .nil), item := (.prim .ref) },
   /- 7575 -/ { field := k!"ecucQueryStringRef", path := (.first [k!"ECUC-QUERY-STRING-REF"] .nil), item := (.prim .ref) }]

/-- `readEcucConditionSpecification`, `parser/arxml_parser.py:7578-7590` (the `EcucConditionSpecification` it makes) -/
def readEcucConditionSpecification_EcucConditionSpecification : List RSlot :=
  [/- 7585 -/ { field := k!"conditionFormula", path := (.first [k!"CONDITION-FORMULA"] .nil), item := (.objs [(k!"CONDITION-FORMULA", k!"readEcucConditionFormula_EcucConditionFormula")]) },
   /- 7587 -/ { field := k!"ecucQueries", path := (.all k!"ECUC-QUERYS" (.all k!"ECUC-QUERY" .nil)), item := (.objs [(k!"ECUC-QUERY", k!"readEcucValidationCondition_EcucQuery")]), named := true },
   /- 7589 -/ { field := k!"informalFormula", path := (.first [k!"INFORMAL-FORMULA"] .nil), item := (.objs [(k!"INFORMAL-FORMULA", k!"getMlFormula_MlFormula")]) }]

/-- `readEcucQuery`, `parser/arxml_parser.py:7608-7615` -/
def readEcucQuery : List RSlot :=
  /- 7609 -/ readIdentifiable ++
  [/- 7615 -/ { field := k!"ecucQueryExpression", path := (.first [k!"ECUC-QUERY-EXPRESSION"] .nil), item := (.objs [(k!"ECUC-QUERY-EXPRESSION", k!"readEcucQuery_EcucQueryExpression")]) }]

/-- `readEcucValidationCondition`, `parser/arxml_parser.py:7592-7601` (the `EcucQuery` it makes); also `readEcucConditionSpecification`, `readEcucDerivationSpecification` -/
def readEcucValidationCondition_EcucQuery : List RSlot :=
  [/- 7596 -/ { field := k!"short_name", path := (.first [k!"SHORT-NAME"] .nil), item := .name, req := .always }] ++
  /- 7597 -/ readEcucQuery

/-- `readEcucContainerDefParameters`, `parser/arxml_parser.py:7685-7710` (the `EcucBooleanParamDef` it makes); also `readEcucDestinationUriPolicyParameters` -/
def readEcucContainerDefParameters_EcucBooleanParamDef : List RSlot :=
  [/- 7689 -/ { field := k!"short_name", path := (.first [k!"SHORT-NAME"] .nil), item := .name, req := .always }] ++
  /- 7690 -/ readEcucBooleanParamDef

/-- `readEcucEnumerationParamDefLiterals`, `parser/arxml_parser.py:7662-7669` -/
def readEcucEnumerationParamDefLiterals : List RSlot :=
  [/- 7666 -/ { field := k!"literals", path := (.all k!"LITERALS" (.all k!"ECUC-ENUMERATION-LITERAL-DEF" .nil)), item := (.objs [(k!"ECUC-ENUMERATION-LITERAL-DEF", k!"readEcucEnumerationParamDefLiterals_EcucEnumerationLiteralDef")]), elems := true, named := true },
   /- 7669 -/ { field := 0, path := (.all k!"LITERALS" (.all 0 .nil)), item := (.guard [k!"ECUC-ENUMERATION-LITERAL-DEF"] .unsupported) }]

/-- `readEcucEnumerationParamDef`, `parser/arxml_parser.py:7671-7674` -/
def readEcucEnumerationParamDef : List RSlot :=
  /- 7672 -/ readEcucParameterDef ++
  [/- 7673 -/ { field := k!"defaultValue", path := (.first [k!"DEFAULT-VALUE"] .nil), item := (.prim .lit) }] ++
  /- 7674 -/ readEcucEnumerationParamDefLiterals

/-- `readEcucContainerDefParameters`, `parser/arxml_parser.py:7685-7710` (the `EcucEnumerationParamDef` it makes); also `readEcucDestinationUriPolicyParameters` -/
def readEcucContainerDefParameters_EcucEnumerationParamDef : List RSlot :=
  [/- 7701 -/ { field := k!"short_name", path := (.first [k!"SHORT-NAME"] .nil), item := .name, req := .always }] ++
  /- 7702 -/ readEcucEnumerationParamDef

/-- `readEcucFloatParamDef`, `parser/arxml_parser.py:7652-7656` -/
def readEcucFloatParamDef : List RSlot :=
  /- 7653 -/ readEcucParameterDef ++
  [/- 7654 -/ { field := k!"defaultValue", path := (.first [k!"DEFAULT-VALUE"] .nil), item := (.prim .float) },
   /- 7655 -/ { field := k!"max", path := (.first [k!"MAX"] .nil), item := (.prim .limit) },
   /- 7656 -/ { field := k!"min", path := (.first [k!"MIN"] .nil), item := (.prim .limit) }]

/-- `readEcucContainerDefParameters`, `parser/arxml_parser.py:7685-7710` (the `EcucFloatParamDef` it makes); also `readEcucDestinationUriPolicyParameters` -/
def readEcucContainerDefParameters_EcucFloatParamDef : List RSlot :=
  [/- 7698 -/ { field := k!"short_name", path := (.first [k!"SHORT-NAME"] .nil), item := .name, req := .always }] ++
  /- 7699 -/ readEcucFloatParamDef

/-- `readEcucFunctionNameDef`, `parser/arxml_parser.py:7676-7683` -/
def readEcucFunctionNameDef : List RSlot :=
  /- 7677 -/ readEcucParameterDef ++
  [/- 7680 -/ { field := k!"defaultValue", path := (.first [k!"ECUC-FUNCTION-NAME-DEF-VARIANTS", k!"ECUC-FUNCTION-NAME-DEF-CONDITIONAL"] (.first [k!"DEFAULT-VALUE"] .nil)), item := (.prim .lit) },
   /- 7681 -/ { field := k!"minLength", path := (.first [k!"ECUC-FUNCTION-NAME-DEF-VARIANTS", k!"ECUC-FUNCTION-NAME-DEF-CONDITIONAL"] (.first [k!"MIN-LENGTH"] .nil)), item := (.prim .integer) },
   /- 7682 -/ { field := k!"maxLength", path := (.first [k!"ECUC-FUNCTION-NAME-DEF-VARIANTS", k!"ECUC-FUNCTION-NAME-DEF-CONDITIONAL"] (.first [k!"MAX-LENGTH"] .nil)), item := (.prim .integer) },
   /- 7683 -/ { field := k!"regularExpression", path := (.first [k!"ECUC-FUNCTION-NAME-DEF-VARIANTS", k!"ECUC-FUNCTION-NAME-DEF-CONDITIONAL"] (.first [k!"REGULAR-EXPRESSION"] .nil)), item := (.prim .lit) }]

/-- `readEcucContainerDefParameters`, `parser/arxml_parser.py:7685-7710` (the `EcucFunctionNameDef` it makes); also `readEcucDestinationUriPolicyParameters` -/
def readEcucContainerDefParameters_EcucFunctionNameDef : List RSlot :=
  [/- 7704 -/ { field := k!"short_name", path := (.first [k!"SHORT-NAME"] .nil), item := .name, req := .always }] ++
  /- 7705 -/ readEcucFunctionNameDef

/-- `readEcucIntegerParamDef`, `parser/arxml_parser.py:7646-7650` -/
def readEcucIntegerParamDef : List RSlot :=
  /- 7647 -/ readEcucParameterDef ++
  [/- 7648 -/ { field := k!"defaultValue", path := (.first [k!"DEFAULT-VALUE"] .nil), item := (.prim .integer) },
   /- 7649 -/ { field := k!"max", path := (.first [k!"MAX"] .nil), item := (.prim .integer) },
   /- 7650 -/ { field := k!"min", path := (.first [k!"MIN"] .nil), item := (.prim .integer) }]

/-- `readEcucContainerDefParameters`, `parser/arxml_parser.py:7685-7710` (the `EcucIntegerParamDef` it makes); also `readEcucDestinationUriPolicyParameters` -/
def readEcucContainerDefParameters_EcucIntegerParamDef : List RSlot :=
  [/- 7695 -/ { field := k!"short_name", path := (.first [k!"SHORT-NAME"] .nil), item := .name, req := .always }] ++
  /- 7696 -/ readEcucIntegerParamDef

/-- `readEcucMultilineStringParamDef`, `parser/arxml_parser.py:7637-7644` -/
def readEcucMultilineStringParamDef : List RSlot :=
  /- 7638 -/ readEcucParameterDef ++
  [/- 7641 -/ { field := k!"defaultValue", path := (.first [k!"ECUC-MULTILINE-STRING-PARAM-DEF-VARIANTS", k!"ECUC-MULTILINE-STRING-PARAM-DEF-CONDITIONAL"] (.first [k!"DEFAULT-VALUE"] .nil)), item := (.prim .lit) },
   /- 7642 -/ { field := k!"minLength", path := (.first [k!"ECUC-MULTILINE-STRING-PARAM-DEF-VARIANTS", k!"ECUC-MULTILINE-STRING-PARAM-DEF-CONDITIONAL"] (.first [k!"MIN-LENGTH"] .nil)), item := (.prim .integer) },
   /- 7643 -/ { field := k!"maxLength", path := (.first [k!"ECUC-MULTILINE-STRING-PARAM-DEF-VARIANTS", k!"ECUC-MULTILINE-STRING-PARAM-DEF-CONDITIONAL"] (.first [k!"MAX-LENGTH"] .nil)), item := (.prim .integer) },
   /- 7644 -/ { field := k!"regularExpression", path := (.first [k!"ECUC-MULTILINE-STRING-PARAM-DEF-VARIANTS", k!"ECUC-MULTILINE-STRING-PARAM-DEF-CONDITIONAL"] (.first [k!"REGULAR-EXPRESSION"] .nil)), item := (.prim .lit) }]

/-- `readEcucContainerDefParameters`, `parser/arxml_parser.py:7685-7710` (the `EcucMultilineStringParamDef` it makes); also `readEcucDestinationUriPolicyParameters` -/
def readEcucContainerDefParameters_EcucMultilineStringParamDef : List RSlot :=
  [/- 7707 -/ { field := k!"short_name", path := (.first [k!"SHORT-NAME"] .nil), item := .name, req := .always }] ++
  /- 7708 -/ readEcucMultilineStringParamDef

/-- `readEcucStringParamDef`, `parser/arxml_parser.py:7628-7635` -/
def readEcucStringParamDef : List RSlot :=
  /- 7629 -/ readEcucParameterDef ++
  [/- 7632 -/ { field := k!"defaultValue", path := (.first [k!"ECUC-STRING-PARAM-DEF-VARIANTS", k!"ECUC-STRING-PARAM-DEF-CONDITIONAL"] (.first [k!"DEFAULT-VALUE"] .nil)), item := (.prim .lit) },
   /- 7633 -/ { field := k!"minLength", path := (.first [k!"ECUC-STRING-PARAM-DEF-VARIANTS", k!"ECUC-STRING-PARAM-DEF-CONDITIONAL"] (.first [k!"MIN-LENGTH"] .nil)), item := (.prim .integer) },
   /- 7634 -/ { field := k!"maxLength", path := (.first [k!"ECUC-STRING-PARAM-DEF-VARIANTS", k!"ECUC-STRING-PARAM-DEF-CONDITIONAL"] (.first [k!"MAX-LENGTH"] .nil)), item := (.prim .integer) },
   /- 7635 -/ { field := k!"regularExpression", path := (.first [k!"ECUC-STRING-PARAM-DEF-VARIANTS", k!"ECUC-STRING-PARAM-DEF-CONDITIONAL"] (.first [k!"REGULAR-EXPRESSION"] .nil)), item := (.prim .lit) }]

/-- `readEcucContainerDefParameters`, `parser/arxml_parser.py:7685-7710` (the `EcucStringParamDef` it makes); also `readEcucDestinationUriPolicyParameters` -/
def readEcucContainerDefParameters_EcucStringParamDef : List RSlot :=
  [/- 7692 -/ { field := k!"short_name", path := (.first [k!"SHORT-NAME"] .nil), item := .name, req := .always }] ++
  /- 7693 -/ readEcucStringParamDef

/-- `readEcucContainerDefReferences`, `parser/arxml_parser.py:7741-7757` (the `EcucChoiceReferenceDef` it makes); also `readEcucDestinationUriPolicyReferences` -/
def readEcucContainerDefReferences_EcucChoiceReferenceDef : List RSlot :=
  [/- 7751 -/ { field := k!"short_name", path := (.first [k!"SHORT-NAME"] .nil), item := .name, req := .always }] ++
  /- 7752 -/ readEcucChoiceReferenceDef

/-- `readEcucInstanceReferenceDef`, `parser/arxml_parser.py:7736-7739` -/
def readEcucInstanceReferenceDef : List RSlot :=
  /- 7737 -/ readEcucAbstractExternalReferenceDef ++
  [/- 7738 -/ { field := k!"destinationContext", path := (.first [k!"DESTINATION-CONTEXT"] .nil), item := (.prim .lit) },
   /- 7739 -/ { field := k!"destinationType", path := (.first [k!"DESTINATION-TYPE"] .nil), item := (.prim .lit) }]

/-- `readEcucContainerDefReferences`, `parser/arxml_parser.py:7741-7757` (the `EcucInstanceReferenceDef` it makes); also `readEcucDestinationUriPolicyReferences` -/
def readEcucContainerDefReferences_EcucInstanceReferenceDef : List RSlot :=
  [/- 7754 -/ { field := k!"short_name", path := (.first [k!"SHORT-NAME"] .nil), item := .name, req := .always }] ++
  /- 7755 -/ readEcucInstanceReferenceDef

/-- `readEcucReferenceDef`, `parser/arxml_parser.py:7727-7729`; also `readEcucSymbolicNameReferenceDef` -/
def readEcucReferenceDef : List RSlot :=
  /- 7728 -/ readEcucAbstractInternalReferenceDef ++
  [/- 7729 -/ { field := k!"destinationRef", path := (.first [k!"DESTINATION-REF"] .nil), item := (.prim .ref) }]

/-- `readEcucContainerDefReferences`, `parser/arxml_parser.py:7741-7757` (the `EcucReferenceDef` it makes); also `readEcucDestinationUriPolicyReferences` -/
def readEcucContainerDefReferences_EcucReferenceDef : List RSlot :=
  [/- 7748 -/ { field := k!"short_name", path := (.first [k!"SHORT-NAME"] .nil), item := .name, req := .always }] ++
  /- 7749 -/ readEcucReferenceDef

/-- `readEcucModuleDefContainers`, `parser/arxml_parser.py:7790-7800` (the `EcucChoiceContainerDef` it makes); also `readEcucContainerDefSubContainers`, `readEcucDestinationUriPolicyContainers` -/
def readEcucModuleDefContainers_EcucChoiceContainerDef : List RSlot :=
  [/- 7797 -/ { field := k!"short_name", path := (.first [k!"SHORT-NAME"] .nil), item := .name, req := .always }] ++
  /- 7798 -/ readEcucChoiceContainerDef

/-- `readEcucContainerValueParameterValues`, `parser/arxml_parser.py:8357-8365` -/
def readEcucContainerValueParameterValues : List RSlot :=
  [/- 8361 -/ { field := k!"parameterValues", path := (.all k!"PARAMETER-VALUES" (.all 0 .nil)), item := (.objs [(k!"ECUC-TEXTUAL-PARAM-VALUE", k!"getEcucTextualParamValue_EcucTextualParamValue"), (k!"ECUC-NUMERICAL-PARAM-VALUE", k!"getEcucNumericalParamValue_EcucNumericalParamValue")]) },
   /- 8365 -/ { field := 0, path := (.all k!"PARAMETER-VALUES" (.all 0 .nil)), item := (.guard [k!"ECUC-TEXTUAL-PARAM-VALUE", k!"ECUC-NUMERICAL-PARAM-VALUE"] .unsupported) }]

/-- `readEcucContainerValueReferenceValues`, `parser/arxml_parser.py:8396-8404` -/
def readEcucContainerValueReferenceValues : List RSlot :=
  [/- 8400 -/ { field := k!"referenceValues", path := (.all k!"REFERENCE-VALUES" (.all 0 .nil)), item := (.objs [(k!"ECUC-REFERENCE-VALUE", k!"getEcucReferenceValue_EcucReferenceValue"), (k!"ECUC-INSTANCE-REFERENCE-VALUE", k!"getEcucInstanceReferenceValue_EcucInstanceReferenceValue")]) },
   /- 8404 -/ { field := 0, path := (.all k!"REFERENCE-VALUES" (.all 0 .nil)), item := (.guard [k!"ECUC-REFERENCE-VALUE", k!"ECUC-INSTANCE-REFERENCE-VALUE"] .unsupported) }]

/-- `readEcucContainerValueEcucContainerValue`, `parser/arxml_parser.py:8414-8418` -/
def readEcucContainerValueEcucContainerValue : List RSlot :=
  [/- 8417 -/ { field := k!"subContainers", path := .nil, item := (.objs [(k!"ECUC-CONTAINER-VALUE", k!"readEcucContainerValueEcucContainerValue_EcucContainerValue")]), elems := true, named := true }]

/-- `readEcucContainerValueSubContainers`, `parser/arxml_parser.py:8420-8426` -/
def readEcucContainerValueSubContainers : List RSlot :=
  /- 8424 -/ via (.all k!"SUB-CONTAINERS" (.all k!"ECUC-CONTAINER-VALUE" .nil)) readEcucContainerValueEcucContainerValue ++
  [/- 8426 -/ { field := 0, path := (.all k!"SUB-CONTAINERS" (.all 0 .nil)), item := (.guard [k!"ECUC-CONTAINER-VALUE"] .unsupported) }]

/-- `readEcucContainerValue`, `parser/arxml_parser.py:8406-8412` -/
def readEcucContainerValue : List RSlot :=
  /- 8407 -/ readIdentifiable ++
  [/- 8408 -/ { field := k!"definitionRef", path := (.first [k!"DEFINITION-REF"] .nil), item := (.prim .ref) },
   /- 8409 -/ { field := k!"index", path := (.first [k!"INDEX"] .nil), item := (.prim .positive) }] ++
  /- 8410 -/ readEcucContainerValueParameterValues ++
  /- 8411 -/ readEcucContainerValueReferenceValues ++
  /- 8412 -/ readEcucContainerValueSubContainers

/-- `readEcucContainerValueEcucContainerValue`, `parser/arxml_parser.py:8414-8418` (the `EcucContainerValue` it makes); also `readEcucModuleConfigurationValuesEcucContainerValue` -/
def readEcucContainerValueEcucContainerValue_EcucContainerValue : List RSlot :=
  [/- 8417 -/ { field := k!"short_name", path := (.first [k!"SHORT-NAME"] .nil), item := .name, req := .always }] ++
  /- 8418 -/ readEcucContainerValue

/-- `readEcucDerivationSpecification`, `parser/arxml_parser.py:7552-7564` (the `EcucDerivationSpecification` it makes) -/
def readEcucDerivationSpecification_EcucDerivationSpecification : List RSlot :=
  [/- 7559 -/ { field := k!"calculationFormula", path := (.first [k!"CALCULATION-FORMULA"] .nil), item := (.objs [(k!"CALCULATION-FORMULA", k!"readEcucParameterDerivationFormula_EcucParameterDerivationFormula")]) },
   /- 7561 -/ { field := k!"ecucQueries", path := (.all k!"ECUC-QUERYS" (.all k!"ECUC-QUERY" .nil)), item := (.objs [(k!"ECUC-QUERY", k!"readEcucValidationCondition_EcucQuery")]), named := true },
   /- 7563 -/ { field := k!"informalFormula", path := (.first [k!"INFORMAL-FORMULA"] .nil), item := (.objs [(k!"INFORMAL-FORMULA", k!"getMlFormula_MlFormula")]) }]

/-- `readEcucDestinationUriDef`, `parser/arxml_parser.py:7430-7437` -/
def readEcucDestinationUriDef : List RSlot :=
  /- 7432 -/ readIdentifiable ++
  [/- 7437 -/ { field := k!"destinationUriPolicy", path := (.first [k!"DESTINATION-URI-POLICY"] .nil), item := (.objs [(k!"DESTINATION-URI-POLICY", k!"readEcucDestinationUriDef_EcucDestinationUriPolicy")]) }]

/-- `readEcucDestinationUriDefSet`, `parser/arxml_parser.py:7420-7428` (the `EcucDestinationUriDef` it makes) -/
def readEcucDestinationUriDefSet_EcucDestinationUriDef : List RSlot :=
  [/- 7425 -/ { field := k!"short_name", path := (.first [k!"SHORT-NAME"] .nil), item := .name, req := .always }] ++
  /- 7426 -/ readEcucDestinationUriDef

/-- `readEcucDestinationUriPolicyContainers`, `parser/arxml_parser.py:7450-7462` -/
def readEcucDestinationUriPolicyContainers : List RSlot :=
  [/- 7456 -/ { field := k!"containers", path := (.all k!"CONTAINERS" (.all 0 .nil)), item := (.objs [(k!"ECUC-PARAM-CONF-CONTAINER-DEF", k!"readEcucModuleDefContainers_EcucParamConfContainerDef"), (k!"ECUC-CHOICE-CONTAINER-DEF", k!"readEcucModuleDefContainers_EcucChoiceContainerDef")]) },
   /- 7462 -/ { field := 0, path := (.all k!"CONTAINERS" (.all 0 .nil)), item := (.guard [k!"ECUC-PARAM-CONF-CONTAINER-DEF", k!"ECUC-CHOICE-CONTAINER-DEF"] .unsupported) }]

/-- `readEcucDestinationUriPolicyParameters`, `parser/arxml_parser.py:7464-7496` -/
def readEcucDestinationUriPolicyParameters : List RSlot :=
  [/- 7470 -/ { field := k!"parameters", path := (.all k!"PARAMETERS" (.all 0 .nil)), item := (.objs [(k!"ECUC-BOOLEAN-PARAM-DEF", k!"readEcucContainerDefParameters_EcucBooleanParamDef"), (k!"ECUC-STRING-PARAM-DEF", k!"readEcucContainerDefParameters_EcucStringParamDef"), (k!"ECUC-INTEGER-PARAM-DEF", k!"readEcucContainerDefParameters_EcucIntegerParamDef"), (k!"ECUC-FLOAT-PARAM-DEF", k!"readEcucContainerDefParameters_EcucFloatParamDef"), (k!"ECUC-ENUMERATION-PARAM-DEF", k!"readEcucContainerDefParameters_EcucEnumerationParamDef"), (k!"ECUC-FUNCTION-NAME-DEF", k!"readEcucContainerDefParameters_EcucFunctionNameDef"), (k!"ECUC-MULTILINE-STRING-PARAM-DEF", k!"readEcucContainerDefParameters_EcucMultilineStringParamDef")]) },
   /- 7496 -/ { field := 0, path := (.all k!"PARAMETERS" (.all 0 .nil)), item := (.guard [k!"ECUC-BOOLEAN-PARAM-DEF", k!"ECUC-STRING-PARAM-DEF", k!"ECUC-INTEGER-PARAM-DEF", k!"ECUC-FLOAT-PARAM-DEF", k!"ECUC-ENUMERATION-PARAM-DEF", k!"ECUC-FUNCTION-NAME-DEF", k!"ECUC-MULTILINE-STRING-PARAM-DEF"] .unsupported) }]

/-- `readEcucDestinationUriPolicyReferences`, `parser/arxml_parser.py:7498-7518` -/
def readEcucDestinationUriPolicyReferences : List RSlot :=
  [/- 7504 -/ { field := k!"references", path := (.all k!"REFERENCES" (.all 0 .nil)), item := (.objs [(k!"ECUC-SYMBOLIC-NAME-REFERENCE-DEF", k!"readEcucContainerDefReferences_EcucSymbolicNameReferenceDef"), (k!"ECUC-REFERENCE-DEF", k!"readEcucContainerDefReferences_EcucReferenceDef"), (k!"ECUC-CHOICE-REFERENCE-DEF", k!"readEcucContainerDefReferences_EcucChoiceReferenceDef"), (k!"ECUC-INSTANCE-REFERENCE-DEF", k!"readEcucContainerDefReferences_EcucInstanceReferenceDef")]) },
   /- 7518 -/ { field := 0, path := (.all k!"REFERENCES" (.all 0 .nil)), item := (.guard [k!"ECUC-SYMBOLIC-NAME-REFERENCE-DEF", k!"ECUC-REFERENCE-DEF", k!"ECUC-CHOICE-REFERENCE-DEF", k!"ECUC-INSTANCE-REFERENCE-DEF"] .unsupported) }]

/-- `readEcucDestinationUriPolicy`, `parser/arxml_parser.py:7439-7448` -/
def readEcucDestinationUriPolicy : List RSlot :=
  [/- 7440 -/ { field := k!"timestamp", path := .nil, item := (.attr k!"T" .raw) },
   /- 7440 -/ { field := k!"uuid", path := .nil, item := (.attr k!"UUID" .raw) }] ++
  /- 7441 -/ readEcucDestinationUriPolicyContainers ++
  [/- 7446 -/ { field := k!"destinationUriNestingContract", path := (.first [k!"DESTINATION-URI-NESTING-CONTRACT"] .nil), item := (.prim .litPlain) }] ++
  /- 7447 -/ readEcucDestinationUriPolicyParameters ++
  /- 7448 -/ readEcucDestinationUriPolicyReferences

/-- `readEcucDestinationUriDef`, `parser/arxml_parser.py:7430-7437` (the `EcucDestinationUriPolicy` it makes) -/
def readEcucDestinationUriDef_EcucDestinationUriPolicy : List RSlot :=
  /- 7436 -/ readEcucDestinationUriPolicy

/-- `readEcucEnumerationLiteral`, `parser/arxml_parser.py:7658-7660` -/
def readEcucEnumerationLiteral : List RSlot :=
  /- 7659 -/ readIdentifiable ++
  [/- 7660 -/ { field := k!"origin", path := (.first [k!"ORIGIN"] .nil), item := (.prim .lit) }]

/-- `readEcucEnumerationParamDefLiterals`, `parser/arxml_parser.py:7662-7669` (the `EcucEnumerationLiteralDef` it makes) -/
def readEcucEnumerationParamDefLiterals_EcucEnumerationLiteralDef : List RSlot :=
  [/- 7666 -/ { field := k!"short_name", path := (.first [k!"SHORT-NAME"] .nil), item := .name, req := .always }] ++
  /- 7667 -/ readEcucEnumerationLiteral

/-- `readEcucQuery`, `parser/arxml_parser.py:7608-7615` (the `EcucQueryExpression` it makes) -/
def readEcucQuery_EcucQueryExpression : List RSlot :=
  [/- 7613 -/ { field := k!"configElementDefGlobalRef", path := (.first [k!"CONFIG-ELEMENT-DEF-GLOBAL-REF"] .nil), item := (.prim .ref) },
   /- 7614 -/ { field := k!"configElementDefLocalRef", path := (.first [k!"CONFIG-ELEMENT-DEF-LOCAL-REF"] .nil), item := (.prim .ref) }]

/-- `readEcucValidationCondition`, `parser/arxml_parser.py:7592-7601` (the `EcucValidationCondition` it makes) -/
def readEcucValidationCondition_EcucValidationCondition : List RSlot :=
  [/- 7593 -/ { field := k!"short_name", path := (.first [k!"SHORT-NAME"] .nil), item := .name, req := .always }] ++
  /- 7594 -/ readIdentifiable ++
  [/- 7596 -/ { field := k!"ecucQueries", path := (.all k!"ECUC-QUERYS" (.all k!"ECUC-QUERY" .nil)), item := (.objs [(k!"ECUC-QUERY", k!"readEcucValidationCondition_EcucQuery")]), named := true },
   /- 7600 -/ { field := k!"validationFormula", path := (.first [k!"VALIDATION-FORMULA"] .nil), item := (.objs [(k!"VALIDATION-FORMULA", k!"readEcucConditionFormula_EcucConditionFormula")]) }]

/-- `readEmphasisText`, `parser/arxml_parser.py:974-988` (the `EmphasisText` it makes) -/
def readEmphasisText_EmphasisText : List RSlot :=
  [/- 977 -/ { field := k!"value", path := .nil, item := (.prim .litText) },
   /- 979 -/ { field := k!"color", path := .nil, item := (.attr k!"COLOR" .lit) },
   /- 981 -/ { field := k!"sup", path := .nil, item := (.attr k!"SUP" .lit) },
   /- 983 -/ { field := k!"sub", path := .nil, item := (.attr k!"SUB" .lit) },
   /- 987 -/ { field := k!"tt", path := (.all k!"TT" .nil), item := (.objs [(k!"TT", k!"readTt_Tt")]), last := true }]

/-- `readEndToEndProtectionEndToEndProtectionISignalIPdus`, `parser/arxml_parser.py:5531-5539` -/
def readEndToEndProtectionEndToEndProtectionISignalIPdus : List RSlot :=
  [/- 5537 -/ { field := k!"endToEndProtectionISignalIPdus", path := (.all k!"END-TO-END-PROTECTION-I-SIGNAL-I-PDUS" (.all k!"END-TO-END-PROTECTION-I-SIGNAL-I-PDU" .nil)), item := (.objs [(k!"END-TO-END-PROTECTION-I-SIGNAL-I-PDU", k!"readEndToEndProtectionEndToEndProtectionISignalIPdus_EndToEndProtectionISignalIPdu")]) },
   /- 5539 -/ { field := 0, path := (.all k!"END-TO-END-PROTECTION-I-SIGNAL-I-PDUS" (.all 0 .nil)), item := (.guard [k!"END-TO-END-PROTECTION-I-SIGNAL-I-PDU"] .unsupported) }]

/-- `readEndToEndProtectionISignalIPdu`, `parser/arxml_parser.py:5526-5529` -/
def readEndToEndProtectionISignalIPdu : List RSlot :=
  [/- 5527 -/ { field := k!"dataOffset", path := (.first [k!"DATA-OFFSET"] .nil), item := (.prim .integer) },
   /- 5528 -/ { field := k!"iSignalGroupRef", path := (.first [k!"I-SIGNAL-GROUP-REF"] .nil), item := (.prim .ref) },
   /- 5529 -/ { field := k!"iSignalIPduRef", path := (.first [k!"I-SIGNAL-I-PDU-REF"] .nil), item := (.prim .ref) }]

/-- `readEndToEndProtectionEndToEndProtectionISignalIPdus`, `parser/arxml_parser.py:5531-5539` (the `EndToEndProtectionISignalIPdu` it makes) -/
def readEndToEndProtectionEndToEndProtectionISignalIPdus_EndToEndProtectionISignalIPdu : List RSlot :=
  /- 5536 -/ readEndToEndProtectionISignalIPdu

/-- `readEndToEndProtectionEndToEndProtectionVariablePrototypes`, `parser/arxml_parser.py:5516-5524` -/
def readEndToEndProtectionEndToEndProtectionVariablePrototypes : List RSlot :=
  [/- 5522 -/ { field := k!"endToEndProtectionVariablePrototypes", path := (.all k!"END-TO-END-PROTECTION-VARIABLE-PROTOTYPES" (.all k!"END-TO-END-PROTECTION-VARIABLE-PROTOTYPE" .nil)), item := (.objs [(k!"END-TO-END-PROTECTION-VARIABLE-PROTOTYPE", k!"readEndToEndProtectionEndToEndProtectionVariablePrototypes_EndToEndProtectionVariablePrototype")]) },
   /- 5524 -/ { field := 0, path := (.all k!"END-TO-END-PROTECTION-VARIABLE-PROTOTYPES" (.all 0 .nil)), item := (.guard [k!"END-TO-END-PROTECTION-VARIABLE-PROTOTYPE"] .invalid) }]

/-- `readEndToEndProtectionVariablePrototype`, `parser/arxml_parser.py:5507-5514` -/
def readEndToEndProtectionVariablePrototype : List RSlot :=
  [/- 5508 -/ { field := k!"timestamp", path := .nil, item := (.attr k!"T" .raw) },
   /- 5508 -/ { field := k!"uuid", path := .nil, item := (.attr k!"UUID" .raw) },
   /- 5510 -/ { field := k!"_receiverIRefs", path := (.all k!"RECEIVER-IREFS" (.all k!"RECEIVER-IREF" .nil)), item := (.objs [(k!"RECEIVER-IREF", k!"getVariableDataPrototypeInSystemInstanceRef_VariableDataPrototypeInSystemInstanceRef")]) },
   /- 5513 -/ { field := k!"senderIRef", path := (.first [k!"SENDER-IREF"] .nil), item := (.objs [(k!"SENDER-IREF", k!"getVariableDataPrototypeInSystemInstanceRef_VariableDataPrototypeInSystemInstanceRef")]) }]

/-- `readEndToEndProtectionEndToEndProtectionVariablePrototypes`, `parser/arxml_parser.py:5516-5524` (the `EndToEndProtectionVariablePrototype` it makes) -/
def readEndToEndProtectionEndToEndProtectionVariablePrototypes_EndToEndProtectionVariablePrototype : List RSlot :=
  /- 5521 -/ readEndToEndProtectionVariablePrototype

/-- `readEndToEndProtection`, `parser/arxml_parser.py:5541-5548` (the `EndToEndProtection` it makes) -/
def readEndToEndProtection_EndToEndProtection : List RSlot :=
  [/- 5544 -/ { field := k!"short_name", path := (.first [k!"SHORT-NAME"] .nil), item := .name, req := .always }] ++
  /- 5545 -/ readIdentifiable ++
  [/- 5546 -/ { field := k!"endToEndProfile", path := (.first [k!"END-TO-END-PROFILE"] .nil), item := (.objs [(k!"END-TO-END-PROFILE", k!"getEndToEndDescription_EndToEndDescription")]) }] ++
  /- 5547 -/ readEndToEndProtectionEndToEndProtectionISignalIPdus ++
  /- 5548 -/ readEndToEndProtectionEndToEndProtectionVariablePrototypes

/-- `readEndToEndTransformationComSpecProps`, `parser/arxml_parser.py:4465-4482` -/
def readEndToEndTransformationComSpecProps : List RSlot :=
  /- 4466 -/ readPPortComSpec ++
  [/- 4467 -/ { field := k!"clearFromValidToInvalid", path := (.first [k!"CLEAR-FROM-VALID-TO-INVALID"] .nil), item := (.prim .boolean) },
   /- 4468 -/ { field := k!"disableEndToEndCheck", path := (.first [k!"DISABLE-END-TO-END-CHECK"] .nil), item := (.prim .boolean) },
   /- 4469 -/ { field := k!"disableEndToEndStateMachine", path := (.first [k!"DISABLE-END-TO-END-STATE-MACHINE"] .nil), item := (.prim .boolean) },
   /- 4470 -/ { field := k!"e2eProfileCompatibilityPropsRef", path := (.first [k!"E2E-PROFILE-COMPATIBILITY-PROPS-REF"] .nil), item := (.prim .ref) },
   /- 4471 -/ { field := k!"maxDeltaCounter", path := (.first [k!"MAX-DELTA-COUNTER"] .nil), item := (.prim .positive) },
   /- 4472 -/ { field := k!"maxErrorStateInit", path := (.first [k!"MAX-ERROR-STATE-INIT"] .nil), item := (.prim .positive) },
   /- 4473 -/ { field := k!"maxErrorStateInvalid", path := (.first [k!"MAX-ERROR-STATE-INVALID"] .nil), item := (.prim .positive) },
   /- 4474 -/ { field := k!"maxErrorStateValid", path := (.first [k!"MAX-ERROR-STATE-VALID"] .nil), item := (.prim .positive) },
   /- 4475 -/ { field := k!"maxNoNewOrRepeatedData", path := (.first [k!"MAX-NO-NEW-OR-REPEATED-DATA"] .nil), item := (.prim .positive) },
   /- 4476 -/ { field := k!"minOkStateInit", path := (.first [k!"MIN-OK-STATE-INIT"] .nil), item := (.prim .positive) },
   /- 4477 -/ { field := k!"minOkStateInvalid", path := (.first [k!"MIN-OK-STATE-INVALID"] .nil), item := (.prim .positive) },
   /- 4478 -/ { field := k!"minOkStateValid", path := (.first [k!"MIN-OK-STATE-VALID"] .nil), item := (.prim .positive) },
   /- 4479 -/ { field := k!"syncCounterInit", path := (.first [k!"SYNC-COUNTER-INIT"] .nil), item := (.prim .positive) },
   /- 4480 -/ { field := k!"windowSizeInit", path := (.first [k!"WINDOW-SIZE-INIT"] .nil), item := (.prim .positive) },
   /- 4481 -/ { field := k!"windowSizeInvalid", path := (.first [k!"WINDOW-SIZE-INVALID"] .nil), item := (.prim .positive) },
   /- 4482 -/ { field := k!"windowSizeValid", path := (.first [k!"WINDOW-SIZE-VALID"] .nil), item := (.prim .positive) }]

/-- `readTransformationDescription`, `parser/arxml_parser.py:7221-7222` -/
def readTransformationDescription : List RSlot :=
  /- 7222 -/ readDescribable

/-- `readEndToEndTransformationDescription`, `parser/arxml_parser.py:7224-7247` -/
def readEndToEndTransformationDescription : List RSlot :=
  /- 7225 -/ readTransformationDescription ++
  [/- 7226 -/ { field := k!"clearFromValidToInvalid", path := (.first [k!"CLEAR-FROM-VALID-TO-INVALID"] .nil), item := (.prim .boolean) },
   /- 7227 -/ { field := k!"counterOffset", path := (.first [k!"COUNTER-OFFSET"] .nil), item := (.prim .positive) },
   /- 7228 -/ { field := k!"crcOffset", path := (.first [k!"CRC-OFFSET"] .nil), item := (.prim .positive) },
   /- 7229 -/ { field := k!"dataIdMode", path := (.first [k!"DATA-ID-MODE"] .nil), item := (.prim .lit) },
   /- 7230 -/ { field := k!"dataIdNibbleOffset", path := (.first [k!"DATA-ID-NIBBLE-OFFSET"] .nil), item := (.prim .positive) },
   /- 7231 -/ { field := k!"e2eProfileCompatibilityPropsRef", path := (.first [k!"E-2-E-PROFILE-COMPATIBILITY-PROPS-REF"] .nil), item := (.prim .ref) },
   /- 7232 -/ { field := k!"maxDeltaCounter", path := (.first [k!"MAX-DELTA-COUNTER"] .nil), item := (.prim .positive) },
   /- 7233 -/ { field := k!"maxErrorStateInit", path := (.first [k!"MAX-ERROR-STATE-INIT"] .nil), item := (.prim .positive) },
   /- 7234 -/ { field := k!"maxErrorStateInvalid", path := (.first [k!"MAX-ERROR-STATE-INVALID"] .nil), item := (.prim .positive) },
   /- 7235 -/ { field := k!"maxErrorStateValid", path := (.first [k!"MAX-ERROR-STATE-VALID"] .nil), item := (.prim .positive) },
   /- 7236 -/ { field := k!"maxNoNewOrRepeatedData", path := (.first [k!"MAX-NO-NEW-OR-REPEATED-DATA"] .nil), item := (.prim .positive) },
   /- 7237 -/ { field := k!"minOkStateInit", path := (.first [k!"MIN-OK-STATE-INIT"] .nil), item := (.prim .positive) },
   /- 7238 -/ { field := k!"minOkStateInvalid", path := (.first [k!"MIN-OK-STATE-INVALID"] .nil), item := (.prim .positive) },
   /- 7239 -/ { field := k!"minOkStateValid", path := (.first [k!"MIN-OK-STATE-VALID"] .nil), item := (.prim .positive) },
   /- 7240 -/ { field := k!"offset", path := (.first [k!"OFFSET"] .nil), item := (.prim .positive) },
   /- 7241 -/ { field := k!"profileBehavior", path := (.first [k!"PROFILE-BEHAVIOR"] .nil), item := (.prim .lit) },
   /- 7242 -/ { field := k!"profileName", path := (.first [k!"PROFILE-NAME"] .nil), item := (.prim .lit) },
   /- 7243 -/ { field := k!"syncCounterInit", path := (.first [k!"SYNC-COUNTER-INIT"] .nil), item := (.prim .positive) },
   /- 7244 -/ { field := k!"upperHeaderBitsToShift", path := (.first [k!"UPPER-HEADER-BITS-TO-SHIFT"] .nil), item := (.prim .positive) },
   /- 7245 -/ { field := k!"windowSizeInit", path := (.first [k!"WINDOW-SIZE-INIT"] .nil), item := (.prim .positive) },
   /- 7246 -/ { field := k!"windowSizeInvalid", path := (.first [k!"WINDOW-SIZE-INVALID"] .nil), item := (.prim .positive) },
   /- 7247 -/ { field := k!"windowSizeValid", path := (.first [k!"WINDOW-SIZE-VALID"] .nil), item := (.prim .positive) }]

/-- `readTransformationISignalProps`, `parser/arxml_parser.py:8471-8480` -/
def readTransformationISignalProps : List RSlot :=
  /- 8472 -/ readDescribable ++
  [/- 8473 -/ { field := k!"csErrorReaction", path := (.first [k!"CS-ERROR-REACTION"] .nil), item := (.prim .lit) },
   /- 8478 -/ { field := k!"dataPrototypeTransformationProps", path := (.all k!"DATA-PROTOTYPE-TRANSFORMATION-PROPSS" (.all k!"DATA-PROTOTYPE-TRANSFORMATION-PROPS" .nil)), item := (.objs [(k!"DATA-PROTOTYPE-TRANSFORMATION-PROPS", k!"readTransformationISignalProps_DataPrototypeTransformationProps")]) },
   /- 8480 -/ { field := 0, path := (.all k!"DATA-PROTOTYPE-TRANSFORMATION-PROPSS" (.all 0 .nil)), item := (.guard [k!"DATA-PROTOTYPE-TRANSFORMATION-PROPS"] .unsupported) }]

/-- `readEndToEndTransformationISignalPropsDataIds`, `parser/arxml_parser.py:8517-8520` -/
def readEndToEndTransformationISignalPropsDataIds : List RSlot :=
  [/- 8520 -/ { field := k!"dataIds", path := (.first [k!"DATA-IDS"] (.first [k!"DATA-ID"] .nil)), item := (.prim .positive) }]

/-- `readEndToEndTransformationISignalProps`, `parser/arxml_parser.py:8522-8528` -/
def readEndToEndTransformationISignalProps : List RSlot :=
  /- 8525 -/ via (.first [k!"END-TO-END-TRANSFORMATION-I-SIGNAL-PROPS-VARIANTS", k!"END-TO-END-TRANSFORMATION-I-SIGNAL-PROPS-CONDITIONAL"] .nil) readTransformationISignalProps ++
  [/- 8526 -/ { field := k!"transformerRef", path := (.first [k!"END-TO-END-TRANSFORMATION-I-SIGNAL-PROPS-VARIANTS", k!"END-TO-END-TRANSFORMATION-I-SIGNAL-PROPS-CONDITIONAL"] (.first [k!"TRANSFORMER-REF"] .nil)), item := (.prim .ref) }] ++
  /- 8527 -/ via (.first [k!"END-TO-END-TRANSFORMATION-I-SIGNAL-PROPS-VARIANTS", k!"END-TO-END-TRANSFORMATION-I-SIGNAL-PROPS-CONDITIONAL"] .nil) readEndToEndTransformationISignalPropsDataIds ++
  [/- 8528 -/ { field := k!"dataLength", path := (.first [k!"END-TO-END-TRANSFORMATION-I-SIGNAL-PROPS-VARIANTS", k!"END-TO-END-TRANSFORMATION-I-SIGNAL-PROPS-CONDITIONAL"] (.first [k!"DATA-LENGTH"] .nil)), item := (.prim .positive) }]

/-- `readErrorTracerNeeds`, `parser/arxml_parser.py:1848-1863` (the `RuntimeError` it makes) -/
def readErrorTracerNeeds_RuntimeError : List RSlot :=
  [/- 1857 -/ { field := k!"short_name", path := (.first [k!"SHORT-NAME"] .nil), item := .name, req := .always }] ++
  /- 1858 -/ readRuntimeError

/-- `readTransientFault`, `parser/arxml_parser.py:1838-1846` -/
def readTransientFault : List RSlot :=
  /- 1839 -/ readTracedFailure ++
  [/- 1843 -/ { field := k!"possibleErrorReactions", path := (.all k!"POSSIBLE-ERROR-REACTIONS" (.all k!"POSSIBLE-ERROR-REACTION" .nil)), item := (.objs [(k!"POSSIBLE-ERROR-REACTION", k!"readTransientFault_PossibleErrorReaction")]), elems := true, named := true },
   /- 1846 -/ { field := 0, path := (.all k!"POSSIBLE-ERROR-REACTIONS" (.all 0 .nil)), item := (.guard [k!"POSSIBLE-ERROR-REACTION"] .unsupported) }]

/-- `readErrorTracerNeeds`, `parser/arxml_parser.py:1848-1863` (the `TransientFault` it makes) -/
def readErrorTracerNeeds_TransientFault : List RSlot :=
  [/- 1860 -/ { field := k!"short_name", path := (.first [k!"SHORT-NAME"] .nil), item := .name, req := .always }] ++
  /- 1861 -/ readTransientFault

/-- `readMacMulticastGroup`, `parser/arxml_parser.py:6351-6358` -/
def readMacMulticastGroup : List RSlot :=
  /- 6352 -/ readIdentifiable ++
  [/- 6353 -/ { field := k!"macMulticastAddress", path := (.first [k!"MAC-MULTICAST-ADDRESS"] .nil), item := (.prim .lit) }]

/-- `readEthernetClusterMacMulticastGroups`, `parser/arxml_parser.py:6360-6367` (the `MacMulticastGroup` it makes) -/
def readEthernetClusterMacMulticastGroups_MacMulticastGroup : List RSlot :=
  [/- 6364 -/ { field := k!"short_name", path := (.first [k!"SHORT-NAME"] .nil), item := .name, req := .always }] ++
  /- 6365 -/ readMacMulticastGroup

/-- `readEthernetCommunicationControllerCouplingPorts`, `parser/arxml_parser.py:8078-8085` (the `CouplingPort` it makes) -/
def readEthernetCommunicationControllerCouplingPorts_CouplingPort : List RSlot :=
  [/- 8082 -/ { field := k!"short_name", path := (.first [k!"SHORT-NAME"] .nil), item := .name, req := .always }] ++
  /- 8083 -/ readCouplingPort

/-- `readNetworkEndPointNetworkEndPointAddress`, `parser/arxml_parser.py:5934-5940` -/
def readNetworkEndPointNetworkEndPointAddress : List RSlot :=
  [/- 5938 -/ { field := k!"networkEndpointAddresses", path := (.all k!"NETWORK-ENDPOINT-ADDRESSES" (.all k!"IPV-6-CONFIGURATION" .nil)), item := (.objs [(k!"IPV-6-CONFIGURATION", k!"getIpv6Configuration_Ipv6Configuration")]) },
   /- 5940 -/ { field := 0, path := (.all k!"NETWORK-ENDPOINT-ADDRESSES" (.all 0 .nil)), item := (.guard [k!"IPV-6-CONFIGURATION"] .unsupported) }]

/-- `readNetworkEndPoint`, `parser/arxml_parser.py:5958-5962` -/
def readNetworkEndPoint : List RSlot :=
  /- 5959 -/ readIdentifiable ++
  [/- 5960 -/ { field := k!"infrastructureServices", path := (.first [k!"INFRASTRUCTURE-SERVICES"] .nil), item := (.objs [(k!"INFRASTRUCTURE-SERVICES", k!"getInfrastructureServices_InfrastructureServices")]) }] ++
  /- 5961 -/ readNetworkEndPointNetworkEndPointAddress ++
  [/- 5962 -/ { field := k!"priority", path := (.first [k!"PRIORITY"] .nil), item := (.prim .positive) }]

/-- `readEthernetPhysicalChannelNetworkEndPoints`, `parser/arxml_parser.py:5964-5967` (the `NetworkEndpoint` it makes) -/
def readEthernetPhysicalChannelNetworkEndPoints_NetworkEndpoint : List RSlot :=
  [/- 5966 -/ { field := k!"short_name", path := (.first [k!"SHORT-NAME"] .nil), item := .name, req := .always }] ++
  /- 5967 -/ readNetworkEndPoint

/-- `readEthernetPhysicalChannelVlan`, `parser/arxml_parser.py:6239-6243` (the `VlanConfig` it makes) -/
def readEthernetPhysicalChannelVlan_VlanConfig : List RSlot :=
  [/- 6242 -/ { field := k!"short_name", path := (.first [k!"SHORT-NAME"] .nil), item := .name, req := .always },
   /- 6243 -/ { field := k!"vlanIdentifier", path := (.first [k!"VLAN-IDENTIFIER"] .nil), item := (.prim .positive) }]

/-- `readEventHandler`, `parser/arxml_parser.py:6149-6157` -/
def readEventHandler : List RSlot :=
  /- 6150 -/ readIdentifiable ++
  [/- 6151 -/ { field := k!"applicationEndpointRef", path := (.first [k!"APPLICATION-ENDPOINT-REF"] .nil), item := (.prim .ref) },
   /- 6153 -/ { field := k!"consumedEventGroupRefs", path := (.all k!"CONSUMED-EVENT-GROUP-REFS" (.all k!"CONSUMED-EVENT-GROUP-REF" .nil)), item := (.prim .ref) },
   /- 6154 -/ { field := k!"multicastThreshold", path := (.first [k!"MULTICAST-THRESHOLD"] .nil), item := (.prim .positive) },
   /- 6156 -/ { field := k!"routingGroupRefs", path := (.all k!"ROUTING-GROUP-REFS" (.all k!"ROUTING-GROUP-REF" .nil)), item := (.prim .ref) },
   /- 6157 -/ { field := k!"sdServerConfig", path := (.first [k!"SD-SERVER-CONFIG"] .nil), item := (.objs [(k!"SD-SERVER-CONFIG", k!"getSdServerConfig_SdServerConfig")]) }]

/-- `readExclusiveAreaNestingOrders`, `parser/arxml_parser.py:1372-1377` (the `ExclusiveAreaNestingOrder` it makes) -/
def readExclusiveAreaNestingOrders_ExclusiveAreaNestingOrder : List RSlot :=
  [/- 1375 -/ { field := k!"short_name", path := (.first [k!"SHORT-NAME"] .nil), item := .name, req := .always },
   /- 1377 -/ { field := k!"exclusiveAreaRefs", path := (.all k!"EXCLUSIVE-AREA-REFS" (.all k!"EXCLUSIVE-AREA-REF" .nil)), item := (.prim .ref) }]

/-- `readExecutionOrderConstraintOrderedElement`, `parser/arxml_parser.py:5724-5730` -/
def readExecutionOrderConstraintOrderedElement : List RSlot :=
  /- 5728 -/ via (.all k!"ORDERED-ELEMENTS" (.all k!"EOC-EXECUTABLE-ENTITY-REF" .nil)) readEOCExecutableEntityRef ++
  [/- 5730 -/ { field := 0, path := (.all k!"ORDERED-ELEMENTS" (.all 0 .nil)), item := (.guard [k!"EOC-EXECUTABLE-ENTITY-REF"] .invalid) }]

/-- `readExecutionOrderConstraint`, `parser/arxml_parser.py:5732-5737` (the `ExecutionOrderConstraint` it makes) -/
def readExecutionOrderConstraint_ExecutionOrderConstraint : List RSlot :=
  [/- 5735 -/ { field := k!"short_name", path := (.first [k!"SHORT-NAME"] .nil), item := .name, req := .always }] ++
  /- 5736 -/ readIdentifiable ++
  /- 5737 -/ readExecutionOrderConstraintOrderedElement

/-- `readHardwareConfiguration`, `parser/arxml_parser.py:2580-2583` -/
def readHardwareConfiguration : List RSlot :=
  [/- 2581 -/ { field := k!"additionalInformation", path := (.first [k!"ADDITIONAL-INFORMATION"] .nil), item := (.prim .lit) },
   /- 2582 -/ { field := k!"processorMode", path := (.first [k!"PROCESSOR-MODE"] .nil), item := (.prim .lit) },
   /- 2583 -/ { field := k!"processorSpeed", path := (.first [k!"PROCESSOR-SPEED"] .nil), item := (.prim .lit) }]

/-- `readHeapUsage`, `parser/arxml_parser.py:2681-2693` (the `HardwareConfiguration` it makes); also `readExecutionTime`, `readStackUsage` -/
def readHeapUsage_HardwareConfiguration : List RSlot :=
  /- 2687 -/ readHardwareConfiguration

/-- `readMemorySectionLocation`, `parser/arxml_parser.py:2589-2591` -/
def readMemorySectionLocation_MemorySectionLocation : List RSlot :=
  [/- 2590 -/ { field := k!"providedMemoryRef", path := (.first [k!"PROVIDED-MEMORY-REF"] .nil), item := (.prim .ref) },
   /- 2591 -/ { field := k!"softwareMemorySectionRef", path := (.first [k!"SOFTWARE-MEMORY-SECTION-REF"] .nil), item := (.prim .ref) }]

/-- `readExecutionTime`, `parser/arxml_parser.py:2593-2613` (the `MemorySectionLocation` it makes) -/
def readExecutionTime_MemorySectionLocation : List RSlot :=
  /- 2608 -/ readMemorySectionLocation_MemorySectionLocation

/-- `readSoftwareContext`, `parser/arxml_parser.py:2585-2587` -/
def readSoftwareContext : List RSlot :=
  [/- 2586 -/ { field := k!"input", path := (.first [k!"INPUT"] .nil), item := (.prim .lit) },
   /- 2587 -/ { field := k!"state", path := (.first [k!"STATE"] .nil), item := (.prim .lit) }]

/-- `readHeapUsage`, `parser/arxml_parser.py:2681-2693` (the `SoftwareContext` it makes); also `readExecutionTime`, `readStackUsage` -/
def readHeapUsage_SoftwareContext : List RSlot :=
  /- 2692 -/ readSoftwareContext

/-- `readExecutionTimes`, `parser/arxml_parser.py:2663-2679` -/
def readExecutionTimes : List RSlot :=
  [/- 2667 -/ { field := k!"executionTimes", path := (.all k!"EXECUTION-TIMES" (.all 0 .nil)), item := (.objs [(k!"ANALYZED-EXECUTION-TIME", k!"readExecutionTimes_AnalyzedExecutionTime"), (k!"MEASURED-EXECUTION-TIME", k!"readExecutionTimes_MeasuredExecutionTime"), (k!"ROUGH-ESTIMATE-OF-EXECUTION-TIME", k!"readExecutionTimes_RoughEstimateOfExecutionTime"), (k!"SIMULATED-EXECUTION-TIME", k!"readExecutionTimes_SimulatedExecutionTime")]), elems := true, named := true, fresh := true },
   /- 2679 -/ { field := 0, path := (.all k!"EXECUTION-TIMES" (.all 0 .nil)), item := (.guard [k!"ANALYZED-EXECUTION-TIME", k!"MEASURED-EXECUTION-TIME", k!"ROUGH-ESTIMATE-OF-EXECUTION-TIME", k!"SIMULATED-EXECUTION-TIME"] .unsupported) }]

/-- `readExecutionTimes`, `parser/arxml_parser.py:2663-2679` (the `AnalyzedExecutionTime` it makes) -/
def readExecutionTimes_AnalyzedExecutionTime : List RSlot :=
  [/- 2667 -/ { field := k!"short_name", path := (.first [k!"SHORT-NAME"] .nil), item := .name, req := .always }] ++
  /- 2668 -/ readAnalyzedExecutionTime

/-- `readMeasuredExecutionTime`, `parser/arxml_parser.py:2628-2639`; also `readSimulatedExecutionTime` -/
def readMeasuredExecutionTime : List RSlot :=
  /- 2629 -/ readExecutionTime_AnalyzedExecutionTime ++
  [/- 2639 -/ { field := k!"maximumExecutionTime", path := (.first [k!"MAXIMUM-EXECUTION-TIME"] .nil), item := (.objs [(k!"MAXIMUM-EXECUTION-TIME", k!"readSwRefTiming_MultidimensionalTime")]) },
   /- 2639 -/ { field := k!"minimumExecutionTime", path := (.first [k!"MINIMUM-EXECUTION-TIME"] .nil), item := (.objs [(k!"MINIMUM-EXECUTION-TIME", k!"readSwRefTiming_MultidimensionalTime")]) },
   /- 2639 -/ { field := k!"nominalExecutionTime", path := (.first [k!"NOMINAL-EXECUTION-TIME"] .nil), item := (.objs [(k!"NOMINAL-EXECUTION-TIME", k!"readSwRefTiming_MultidimensionalTime")]) }]

/-- `readExecutionTimes`, `parser/arxml_parser.py:2663-2679` (the `MeasuredExecutionTime` it makes) -/
def readExecutionTimes_MeasuredExecutionTime : List RSlot :=
  [/- 2670 -/ { field := k!"short_name", path := (.first [k!"SHORT-NAME"] .nil), item := .name, req := .always }] ++
  /- 2671 -/ readMeasuredExecutionTime

/-- `readRoughEstimateOfExecutionTime`, `parser/arxml_parser.py:2654-2661` -/
def readRoughEstimateOfExecutionTime : List RSlot :=
  /- 2655 -/ readExecutionTime_AnalyzedExecutionTime ++
  [/- 2656 -/ { field := k!"additionalInformation", path := (.first [k!"ADDITIONAL-INFORMATION"] .nil), item := (.prim .lit) },
   /- 2661 -/ { field := k!"estimatedExecutionTime", path := (.first [k!"ESTIMATED-EXECUTION-TIME"] .nil), item := (.objs [(k!"ESTIMATED-EXECUTION-TIME", k!"readSwRefTiming_MultidimensionalTime")]) }]

/-- `readExecutionTimes`, `parser/arxml_parser.py:2663-2679` (the `RoughEstimateOfExecutionTime` it makes) -/
def readExecutionTimes_RoughEstimateOfExecutionTime : List RSlot :=
  [/- 2673 -/ { field := k!"short_name", path := (.first [k!"SHORT-NAME"] .nil), item := .name, req := .always }] ++
  /- 2674 -/ readRoughEstimateOfExecutionTime

/-- `readFlatInstanceDescriptor`, `parser/arxml_parser.py:8905-8909` -/
def readFlatInstanceDescriptor : List RSlot :=
  /- 8907 -/ readIdentifiable ++
  [/- 8908 -/ { field := k!"upstreamReferenceIRef", path := (.first [k!"UPSTREAM-REFERENCE-IREF"] .nil), item := (.objs [(k!"UPSTREAM-REFERENCE-IREF", k!"getAnyInstanceRef_AnyInstanceRef")]) },
   /- 8909 -/ { field := k!"ecuExtractReferenceIRef", path := (.first [k!"ECU-EXTRACT-REFERENCE-IREF"] .nil), item := (.objs [(k!"ECU-EXTRACT-REFERENCE-IREF", k!"getAnyInstanceRef_AnyInstanceRef")]) }]

/-- `readFlatMapInstances`, `parser/arxml_parser.py:8911-8918` (the `FlatInstanceDescriptor` it makes) -/
def readFlatMapInstances_FlatInstanceDescriptor : List RSlot :=
  [/- 8915 -/ { field := k!"short_name", path := (.first [k!"SHORT-NAME"] .nil), item := .name, req := .always }] ++
  /- 8916 -/ readFlatInstanceDescriptor

/-- `readFlexrayAbsolutelyScheduledTimingCommunicationCycle`, `parser/arxml_parser.py:5784-5792` -/
def readFlexrayAbsolutelyScheduledTimingCommunicationCycle : List RSlot :=
  [/- 5790 -/ { field := k!"communicationCycle", path := (.all k!"COMMUNICATION-CYCLE" (.all k!"CYCLE-REPETITION" .nil)), item := (.objs [(k!"CYCLE-REPETITION", k!"readFlexrayAbsolutelyScheduledTimingCommunicationCycle_CycleRepetition")]), last := true },
   /- 5792 -/ { field := 0, path := (.all k!"COMMUNICATION-CYCLE" (.all 0 .nil)), item := (.guard [k!"CYCLE-REPETITION"] .unsupported) }]

/-- `readFlexrayAbsolutelyScheduledTiming`, `parser/arxml_parser.py:5794-5797` -/
def readFlexrayAbsolutelyScheduledTiming : List RSlot :=
  [/- 5795 -/ { field := k!"timestamp", path := .nil, item := (.attr k!"T" .raw) },
   /- 5795 -/ { field := k!"uuid", path := .nil, item := (.attr k!"UUID" .raw) }] ++
  /- 5796 -/ readFlexrayAbsolutelyScheduledTimingCommunicationCycle ++
  [/- 5797 -/ { field := k!"slotID", path := (.first [k!"SLOT-ID"] .nil), item := (.prim .positive) }]

/-- `readFlexrayAbsolutelyScheduledTimingCommunicationCycle`, `parser/arxml_parser.py:5784-5792` (the `CycleRepetition` it makes) -/
def readFlexrayAbsolutelyScheduledTimingCommunicationCycle_CycleRepetition : List RSlot :=
  /- 5789 -/ readCycleRepetition

/-- `readFlexrayCommunicationController`, `parser/arxml_parser.py:7134-7183` (the `FlexrayFifoConfiguration` it makes) -/
def readFlexrayCommunicationController_FlexrayFifoConfiguration : List RSlot :=
  [/- 7168 -/ { field := k!"admitWithoutMessageId", path := (.first [k!"ADMIT-WITHOUT-MESSAGE-ID"] .nil), item := (.prim .boolean) },
   /- 7169 -/ { field := k!"baseCycle", path := (.first [k!"BASE-CYCLE"] .nil), item := (.prim .integer) },
   /- 7170 -/ { field := k!"channelRef", path := (.first [k!"CHANNEL-REF"] .nil), item := (.prim .ref) },
   /- 7171 -/ { field := k!"cycleRepetition", path := (.first [k!"CYCLE-REPETITION"] .nil), item := (.prim .integer) },
   /- 7172 -/ { field := k!"fifoDepth", path := (.first [k!"FIFO-DEPTH"] .nil), item := (.prim .integer) },
   /- 7174 -/ { field := k!"fifoRange", path := (.all k!"FLEXRAY-FIFO-RANGE" .nil), item := (.objs [(k!"FLEXRAY-FIFO-RANGE", k!"readFlexrayCommunicationController_FlexrayFifoRange")]) },
   /- 7177 -/ { field := k!"msgIdMask", path := (.first [k!"MSG-ID-MASK"] .nil), item := (.prim .integer) },
   /- 7178 -/ { field := k!"msgIdMatch", path := (.first [k!"MSG-ID-MATCH"] .nil), item := (.prim .integer) }]

/-- `readFlexrayCommunicationController`, `parser/arxml_parser.py:7134-7183` (the `FlexrayFifoRange` it makes) -/
def readFlexrayCommunicationController_FlexrayFifoRange : List RSlot :=
  [/- 7175 -/ { field := k!"rangeMax", path := (.first [k!"RANGE-MAX"] .nil), item := (.prim .integer) },
   /- 7176 -/ { field := k!"rangeMin", path := (.first [k!"RANGE-MIN"] .nil), item := (.prim .integer) }]

/-- `readFlexrayFrameTriggeringAbsolutelyScheduledTimings`, `parser/arxml_parser.py:5799-5807` -/
def readFlexrayFrameTriggeringAbsolutelyScheduledTimings : List RSlot :=
  [/- 5805 -/ { field := k!"absolutelyScheduledTimings", path := (.all k!"ABSOLUTELY-SCHEDULED-TIMINGS" (.all k!"FLEXRAY-ABSOLUTELY-SCHEDULED-TIMING" .nil)), item := (.objs [(k!"FLEXRAY-ABSOLUTELY-SCHEDULED-TIMING", k!"readFlexrayFrameTriggeringAbsolutelyScheduledTimings_FlexrayAbsolutelyScheduledTiming")]) },
   /- 5807 -/ { field := 0, path := (.all k!"ABSOLUTELY-SCHEDULED-TIMINGS" (.all 0 .nil)), item := (.guard [k!"FLEXRAY-ABSOLUTELY-SCHEDULED-TIMING"] .unsupported) }]

/-- `readFlexrayFrameTriggering`, `parser/arxml_parser.py:5809-5815` -/
def readFlexrayFrameTriggering : List RSlot :=
  /- 5811 -/ readFrameTriggering ++
  /- 5812 -/ readFlexrayFrameTriggeringAbsolutelyScheduledTimings ++
  [/- 5813 -/ { field := k!"allowDynamicLSduLength", path := (.first [k!"ALLOW-DYNAMIC-L-SDU-LENGTH"] .nil), item := (.prim .boolean) },
   /- 5814 -/ { field := k!"messageId", path := (.first [k!"MESSAGE-ID"] .nil), item := (.prim .positive) },
   /- 5815 -/ { field := k!"payloadPreambleIndicator", path := (.first [k!"PAYLOAD-PREAMBLE-INDICATOR"] .nil), item := (.prim .boolean) }]

/-- `readFlexrayFrameTriggeringAbsolutelyScheduledTimings`, `parser/arxml_parser.py:5799-5807` (the `FlexrayAbsolutelyScheduledTiming` it makes) -/
def readFlexrayFrameTriggeringAbsolutelyScheduledTimings_FlexrayAbsolutelyScheduledTiming : List RSlot :=
  /- 5804 -/ readFlexrayAbsolutelyScheduledTiming

/-- `readHeapUsage`, `parser/arxml_parser.py:2681-2693` -/
def readHeapUsage_MeasuredHeapUsage : List RSlot :=
  /- 2682 -/ readIdentifiable ++
  [/- 2683 -/ { field := k!"hwElementRef", path := (.first [k!"HW-ELEMENT-REF"] .nil), item := (.prim .ref) },
   /- 2688 -/ { field := k!"hardwareConfiguration", path := (.first [k!"HARDWARE-CONFIGURATION"] .nil), item := (.objs [(k!"HARDWARE-CONFIGURATION", k!"readHeapUsage_HardwareConfiguration")]) },
   /- 2693 -/ { field := k!"softwareContext", path := (.first [k!"SOFTWARE-CONTEXT"] .nil), item := (.objs [(k!"SOFTWARE-CONTEXT", k!"readHeapUsage_SoftwareContext")]) }]

/-- `readHeapUsages`, `parser/arxml_parser.py:2710-2723` -/
def readHeapUsages : List RSlot :=
  [/- 2714 -/ { field := k!"heapUsages", path := (.all k!"HEAP-USAGES" (.all 0 .nil)), item := (.objs [(k!"MEASURED-HEAP-USAGE", k!"readHeapUsages_MeasuredHeapUsage"), (k!"ROUGH-ESTIMATE-HEAP-USAGE", k!"readHeapUsages_RoughEstimateHeapUsage"), (k!"WORST-CASE-HEAP-USAGE", k!"readHeapUsages_WorstCaseHeapUsage")]), elems := true, named := true, fresh := true },
   /- 2723 -/ { field := 0, path := (.all k!"HEAP-USAGES" (.all 0 .nil)), item := (.guard [k!"MEASURED-HEAP-USAGE", k!"ROUGH-ESTIMATE-HEAP-USAGE", k!"WORST-CASE-HEAP-USAGE"] .unsupported) }]

/-- `readMeasuredHeapUsage`, `parser/arxml_parser.py:2695-2700` -/
def readMeasuredHeapUsage : List RSlot :=
  /- 2696 -/ readHeapUsage_MeasuredHeapUsage ++
  [/- 2697 -/ { field := k!"averageMemoryConsumption", path := (.first [k!"AVERAGE-MEMORY-CONSUMPTION"] .nil), item := (.prim .positive) },
   /- 2698 -/ { field := k!"maximumMemoryConsumption", path := (.first [k!"MAXIMUM-MEMORY-CONSUMPTION"] .nil), item := (.prim .positive) },
   /- 2699 -/ { field := k!"minimumMemoryConsumption", path := (.first [k!"MINIMUM-MEMORY-CONSUMPTION"] .nil), item := (.prim .positive) },
   /- 2700 -/ { field := k!"testPattern", path := (.first [k!"TEST-PATTERN"] .nil), item := (.prim .lit) }]

/-- `readHeapUsages`, `parser/arxml_parser.py:2710-2723` (the `MeasuredHeapUsage` it makes) -/
def readHeapUsages_MeasuredHeapUsage : List RSlot :=
  [/- 2714 -/ { field := k!"short_name", path := (.first [k!"SHORT-NAME"] .nil), item := .name, req := .always }] ++
  /- 2715 -/ readMeasuredHeapUsage

/-- `readWorstCaseHeapUsage`, `parser/arxml_parser.py:2706-2708`; also `readRoughEstimateHeapUsage` -/
def readWorstCaseHeapUsage : List RSlot :=
  /- 2707 -/ readHeapUsage_MeasuredHeapUsage ++
  [/- 2708 -/ { field := k!"memoryConsumption", path := (.first [k!"MEMORY-CONSUMPTION"] .nil), item := (.prim .positive) }]

/-- `readHeapUsages`, `parser/arxml_parser.py:2710-2723` (the `WorstCaseHeapUsage` it makes) -/
def readHeapUsages_WorstCaseHeapUsage : List RSlot :=
  [/- 2720 -/ { field := k!"short_name", path := (.first [k!"SHORT-NAME"] .nil), item := .name, req := .always }] ++
  /- 2721 -/ readWorstCaseHeapUsage

/-- `readHwAttributeDef`, `parser/arxml_parser.py:6651-6657` -/
def readHwAttributeDef : List RSlot :=
  /- 6652 -/ readIdentifiable ++
  [/- 6653 -/ { field := k!"isRequired", path := (.first [k!"IS-REQUIRED"] .nil), item := (.prim .boolean) },
   /- 6654 -/ { field := k!"unitRef", path := (.first [k!"UNIT-REF"] .nil), item := (.prim .ref) },
   /- 6656 -/ { field := k!"hwAttributeLiterals", path := (.all k!"HW-ATTRIBUTE-LITERALS" (.all k!"HW-ATTRIBUTE-LITERAL-DEF" .nil)), item := (.objs [(k!"HW-ATTRIBUTE-LITERAL-DEF", k!"readHwAttributeDef_HwAttributeLiteralDef")]), elems := true, named := true }]

/-- `readHwAttributeLiteralDef`, `parser/arxml_parser.py:6659-6661` -/
def readHwAttributeLiteralDef_HwAttributeLiteralDef : List RSlot :=
  /- 6660 -/ readIdentifiable ++
  [/- 6661 -/ { field := 0, path := .nil, item := (.crash .attributeError) }]

/-- `readHwAttributeDef`, `parser/arxml_parser.py:6651-6657` (the `HwAttributeLiteralDef` it makes) -/
def readHwAttributeDef_HwAttributeLiteralDef : List RSlot :=
  [/- 6656 -/ { field := k!"short_name", path := (.first [k!"SHORT-NAME"] .nil), item := .name, req := .always }] ++
  /- 6657 -/ readHwAttributeLiteralDef_HwAttributeLiteralDef

/-- `readHwAttributeValue`, `parser/arxml_parser.py:6568-6570` -/
def readHwAttributeValue : List RSlot :=
  [/- 6569 -/ { field := k!"timestamp", path := .nil, item := (.attr k!"T" .raw) },
   /- 6569 -/ { field := k!"uuid", path := .nil, item := (.attr k!"UUID" .raw) },
   /- 6570 -/ { field := k!"hwAttributeDefRef", path := (.first [k!"HW-ATTRIBUTE-DEF-REF"] .nil), item := (.prim .ref) }]

/-- `readHwCategoryHwAttributeDef`, `parser/arxml_parser.py:6663-6670` (the `HwAttributeDef` it makes) -/
def readHwCategoryHwAttributeDef_HwAttributeDef : List RSlot :=
  [/- 6667 -/ { field := k!"short_name", path := (.first [k!"SHORT-NAME"] .nil), item := .name, req := .always }] ++
  /- 6668 -/ readHwAttributeDef

/-- `readHwDescriptionEntityHwAttributeValues`, `parser/arxml_parser.py:6572-6576` (the `HwAttributeValue` it makes) -/
def readHwDescriptionEntityHwAttributeValues_HwAttributeValue : List RSlot :=
  /- 6575 -/ readHwAttributeValue

/-- `readHwElementConnector`, `parser/arxml_parser.py:6622-6629` -/
def readHwElementConnector : List RSlot :=
  /- 6623 -/ readDescribable ++
  [/- 6625 -/ { field := k!"hwElementRefs", path := (.all k!"HW-ELEMENT-REF" .nil), item := (.prim .ref) },
   /- 6627 -/ { field := k!"hwPinConnections", path := (.all k!"HW-PIN-CONNECTION" .nil), item := (.objs [(k!"HW-PIN-CONNECTION", k!"readHwPinConnector_HwPinConnector")]) },
   /- 6629 -/ { field := k!"hwPinGroupConnections", path := (.all k!"HW-PIN-GROUP-CONNECTION" .nil), item := (.objs [(k!"HW-PIN-GROUP-CONNECTION", k!"readHwPinGroupConnector_HwPinGroupConnector")]) }]

/-- `readHwElementHwElementConnections`, `parser/arxml_parser.py:6631-6635` (the `HwElementConnector` it makes) -/
def readHwElementHwElementConnections_HwElementConnector : List RSlot :=
  /- 6634 -/ readHwElementConnector

/-- `readHwPinGroup`, `parser/arxml_parser.py:6584-6585` -/
def readHwPinGroup : List RSlot :=
  /- 6585 -/ readHwDescriptionEntity

/-- `readHwElementHwPinGroups`, `parser/arxml_parser.py:6597-6604` (the `HwPinGroup` it makes) -/
def readHwElementHwPinGroups_HwPinGroup : List RSlot :=
  [/- 6601 -/ { field := k!"short_name", path := (.first [k!"SHORT-NAME"] .nil), item := .name, req := .always }] ++
  /- 6602 -/ readHwPinGroup

/-- `readHwPinConnector`, `parser/arxml_parser.py:6606-6611` (the `HwPinConnector` it makes) -/
def readHwPinConnector_HwPinConnector : List RSlot :=
  /- 6608 -/ readDescribable ++
  [/- 6610 -/ { field := k!"hwPinRefs", path := (.all k!"HW-PIN-REF" .nil), item := (.prim .ref) }]

/-- `readHwPinGroupConnector`, `parser/arxml_parser.py:6613-6620` (the `HwPinGroupConnector` it makes) -/
def readHwPinGroupConnector_HwPinGroupConnector : List RSlot :=
  /- 6615 -/ readDescribable ++
  [/- 6617 -/ { field := k!"hwPinConnections", path := (.all k!"HW-PIN-CONNECTION" .nil), item := (.objs [(k!"HW-PIN-CONNECTION", k!"readHwPinConnector_HwPinConnector")]) },
   /- 6619 -/ { field := k!"hwPinGroupRefs", path := (.all k!"HW-PIN-GROUP-REF" .nil), item := (.prim .ref) }]

/-- `readISignalTransformationISignalProps`, `parser/arxml_parser.py:8316-8324` (the `EndToEndTransformationISignalProps` it makes); also `readISignalGroupTransformationISignalProps` -/
def readISignalTransformationISignalProps_EndToEndTransformationISignalProps : List RSlot :=
  /- 8321 -/ readEndToEndTransformationISignalProps

/-- `readISignalProps`, `parser/arxml_parser.py:8309-8314` (the `ISignalProps` it makes) -/
def readISignalProps_ISignalProps : List RSlot :=
  [/- 8313 -/ { field := k!"handleOutOfRange", path := (.first [k!"HANDLE-OUT-OF-RANGE"] .nil), item := (.prim .lit) }]

/-- `readISignalToIPduMapping`, `parser/arxml_parser.py:6705-6712` -/
def readISignalToIPduMapping : List RSlot :=
  /- 6706 -/ readIdentifiable ++
  [/- 6707 -/ { field := k!"iSignalRef", path := (.first [k!"I-SIGNAL-REF"] .nil), item := (.prim .ref) },
   /- 6708 -/ { field := k!"iSignalGroupRef", path := (.first [k!"I-SIGNAL-GROUP-REF"] .nil), item := (.prim .ref) },
   /- 6709 -/ { field := k!"packingByteOrder", path := (.first [k!"PACKING-BYTE-ORDER"] .nil), item := (.prim .lit) },
   /- 6710 -/ { field := k!"startPosition", path := (.first [k!"START-POSITION"] .nil), item := (.prim .integer) },
   /- 6711 -/ { field := k!"transferProperty", path := (.first [k!"TRANSFER-PROPERTY"] .nil), item := (.prim .lit) },
   /- 6712 -/ { field := k!"updateIndicationBitPosition", path := (.first [k!"UPDATE-INDICATION-BIT-POSITION"] .nil), item := (.prim .numerical) }]

/-- `readISignalToPduMappings`, `parser/arxml_parser.py:8598-8608` (the `ISignalToIPduMapping` it makes) -/
def readISignalToPduMappings_ISignalToIPduMapping : List RSlot :=
  [/- 8601 -/ { field := k!"short_name", path := (.first [k!"SHORT-NAME"] .nil), item := .name, req := .always }] ++
  /- 8602 -/ readIdentifiable ++
  [/- 8603 -/ { field := k!"iSignalRef", path := (.first [k!"I-SIGNAL-REF"] .nil), item := (.prim .ref) },
   /- 8604 -/ { field := k!"iSignalGroupRef", path := (.first [k!"I-SIGNAL-GROUP-REF"] .nil), item := (.prim .ref) },
   /- 8605 -/ { field := k!"packingByteOrder", path := (.first [k!"PACKING-BYTE-ORDER"] .nil), item := (.prim .lit) },
   /- 8606 -/ { field := k!"startPosition", path := (.first [k!"START-POSITION"] .nil), item := (.prim .numerical) },
   /- 8607 -/ { field := k!"transferProperty", path := (.first [k!"TRANSFER-PROPERTY"] .nil), item := (.prim .lit) },
   /- 8608 -/ { field := k!"updateIndicationBitPosition", path := (.first [k!"UPDATE-INDICATION-BIT-POSITION"] .nil), item := (.prim .numerical) }]

/-- `readISignalTriggering`, `parser/arxml_parser.py:5817-5823` -/
def readISignalTriggering : List RSlot :=
  /- 5819 -/ readIdentifiable ++
  [/- 5820 -/ { field := k!"iSignalGroupRef", path := (.first [k!"I-SIGNAL-GROUP-REF"] .nil), item := (.prim .ref) },
   /- 5822 -/ { field := k!"iSignalPortRefs", path := (.all k!"I-SIGNAL-PORT-REFS" (.all k!"I-SIGNAL-PORT-REF" .nil)), item := (.prim .ref) },
   /- 5823 -/ { field := k!"iSignalRef", path := (.first [k!"I-SIGNAL-REF"] .nil), item := (.prim .ref) }]

/-- `readVariationPoint`, `parser/arxml_parser.py:829-851` -/
def readVariationPoint : List RSlot :=
  [/- 830 -/ { field := k!"timestamp", path := .nil, item := (.attr k!"T" .raw) },
   /- 830 -/ { field := k!"uuid", path := .nil, item := (.attr k!"UUID" .raw) },
   /- 831 -/ { field := k!"shortLabel", path := (.first [k!"SHORT-LABEL"] .nil), item := (.prim .lit) },
   /- 832 -/ { field := k!"desc", path := (.first [k!"DESC"] .nil), item := (.objs [(k!"DESC", k!"getMultiLanguageOverviewParagraph_MultiLanguageOverviewParagraph")]) },
   /- 833 -/ { field := k!"blueprintCondition", path := (.first [k!"BLUEPRINT-CONDITION"] .nil), item := (.objs [(k!"BLUEPRINT-CONDITION", k!"getDocumentationBlock_DocumentationBlock")]) },
   /- 838 -/ { field := k!"formalBlueprintGenerator", path := (.first [k!"FORMAL-BLUEPRINT-GENERATOR"] .nil), item := (.objs [(k!"FORMAL-BLUEPRINT-GENERATOR", k!"readVariationPoint_BlueprintGenerator")]) },
   /- 841 -/ { field := k!"swSyscond", path := (.first [k!"SW-SYSCOND"] .nil), item := (.objs [(k!"SW-SYSCOND", k!"readVariationPoint_ConditionByFormula")]) },
   /- 845 -/ { field := k!"postBuildVariantConditions", path := (.all k!"POST-BUILD-VARIANT-CONDITIONS" (.all k!"POST-BUILD-VARIANT-CONDITION" .nil)), item := (.objs [(k!"POST-BUILD-VARIANT-CONDITION", k!"readVariationPoint_PostBuildVariantCondition")]) },
   /- 847 -/ { field := 0, path := (.all k!"POST-BUILD-VARIANT-CONDITIONS" (.all 0 .nil)), item := (.guard [k!"POST-BUILD-VARIANT-CONDITION"] .unsupported) },
   /- 850 -/ { field := k!"sdg", path := (.first [k!"SDG"] .nil), item := (.objs [(k!"SDG", k!"getSdg_Sdg")]) }]

/-- `readIdentifiable`, `parser/arxml_parser.py:933-948` (the `VariationPoint` it makes) -/
def readIdentifiable_VariationPoint : List RSlot :=
  /- 948 -/ readVariationPoint

/-- `readImplementationDataTypeElement`, `parser/arxml_parser.py:4099-4104` -/
def readImplementationDataTypeElement : List RSlot :=
  /- 4100 -/ readDataPrototype ++
  [/- 4101 -/ { field := k!"arraySize", path := (.first [k!"ARRAY-SIZE"] .nil), item := (.prim .positive) },
   /- 4102 -/ { field := k!"arraySizeHandling", path := (.first [k!"ARRAY-SIZE-HANDLING"] .nil), item := (.prim .lit) },
   /- 4103 -/ { field := k!"arraySizeSemantics", path := (.first [k!"ARRAY-SIZE-SEMANTICS"] .nil), item := (.prim .lit) }] ++
  /- 4104 -/ readImplementationDataTypeSubElements

/-- `readImplementationDataTypeSubElements`, `parser/arxml_parser.py:4106-4113` (the `ImplementationDataTypeElement` it makes) -/
def readImplementationDataTypeSubElements_ImplementationDataTypeElement : List RSlot :=
  [/- 4110 -/ { field := k!"short_name", path := (.first [k!"SHORT-NAME"] .nil), item := .name, req := .always }] ++
  /- 4111 -/ readImplementationDataTypeElement

/-- `readImplementationElementInParameterInstanceRef`, `parser/arxml_parser.py:2858-2860` -/
def readImplementationElementInParameterInstanceRef : List RSlot :=
  [/- 2859 -/ { field := k!"contextRef", path := (.first [k!"CONTEXT-REF"] .nil), item := (.prim .ref) },
   /- 2860 -/ { field := k!"targetRef", path := (.first [k!"TARGET-REF"] .nil), item := (.prim .ref) }]

/-- `readMcSupportData`, `parser/arxml_parser.py:2824-2841` -/
def readMcSupportData : List RSlot :=
  [/- 2828 -/ { field := k!"emulationSupports", path := (.all k!"EMULATION-SUPPORTS" (.all k!"MC-SW-EMULATION-METHOD-SUPPORT" .nil)), item := (.objs [(k!"MC-SW-EMULATION-METHOD-SUPPORT", k!"readMcSupportData_McSwEmulationMethodSupport")]) },
   /- 2830 -/ { field := k!"mcParameterInstances", path := (.all k!"MC-PARAMETER-INSTANCES" (.all k!"MC-DATA-INSTANCE" .nil)), item := (.objs [(k!"MC-DATA-INSTANCE", k!"readMcSupportData_McDataInstance")]), named := true },
   /- 2833 -/ { field := k!"mcVariableInstances", path := (.all k!"MC-VARIABLE-INSTANCES" (.all k!"MC-DATA-INSTANCE" .nil)), item := (.objs [(k!"MC-DATA-INSTANCE", k!"readMcSupportData_McDataInstance")]), named := true },
   /- 2836 -/ { field := k!"measurableSystemConstantValuesRefs", path := (.all k!"MEASURABLE-SYSTEM-CONSTANT-VALUES-REFS" (.all k!"MEASURABLE-SYSTEM-CONSTANT-VALUES-REF" .nil)), item := (.prim .ref) },
   /- 2841 -/ { field := k!"rptSupportData", path := (.first [k!"RPT-SUPPORT-DATA"] .nil), item := (.objs [(k!"RPT-SUPPORT-DATA", k!"readMcSupportData_RptSupportData")]) }]

/-- `readImplementation`, `parser/arxml_parser.py:2800-2822` (the `McSupportData` it makes) -/
def readImplementation_McSupportData : List RSlot :=
  /- 2821 -/ readMcSupportData

/-- `readIncludedModeDeclarationGroupSet`, `parser/arxml_parser.py:2059-2062` -/
def readIncludedModeDeclarationGroupSet : List RSlot :=
  [/- 2061 -/ { field := k!"mode_declaration_group_refs", path := (.all k!"MODE-DECLARATION-GROUP-REFS" (.all k!"MODE-DECLARATION-GROUP-REF" .nil)), item := (.prim .ref) },
   /- 2062 -/ { field := k!"prefix", path := (.first [k!"PREFIX"] .nil), item := (.prim .lit) }]

/-- `readIndexEntry`, `parser/arxml_parser.py:990-998` (the `IndexEntry` it makes) -/
def readIndexEntry_IndexEntry : List RSlot :=
  [/- 993 -/ { field := k!"value", path := .nil, item := (.prim .litText) },
   /- 995 -/ { field := k!"sup", path := .nil, item := (.attr k!"SUP" .lit) },
   /- 997 -/ { field := k!"sub", path := .nil, item := (.attr k!"SUB" .lit) }]

/-- `readInnerRunnableEntityGroupInCompositionInstanceRef`, `parser/arxml_parser.py:3203-3206` -/
def readInnerRunnableEntityGroupInCompositionInstanceRef : List RSlot :=
  [/- 3205 -/ { field := k!"contextSwComponentPrototypeRefs", path := (.all k!"CONTEXT-SW-COMPONENT-PROTOTYPE-REF" .nil), item := (.prim .ref) },
   /- 3206 -/ { field := k!"targetRunnableEntityGroupRef", path := (.first [k!"TARGET-RUNNABLE-ENTITY-GROUP-REF"] .nil), item := (.prim .ref) }]

/-- `readInstanceEventInCompositionInstanceRef`, `parser/arxml_parser.py:4939-4942` -/
def readInstanceEventInCompositionInstanceRef : List RSlot :=
  [/- 4941 -/ { field := k!"contextComponentPrototypeRefs", path := (.all k!"CONTEXT-COMPONENT-PROTOTYPE-REF" .nil), item := (.prim .ref) },
   /- 4942 -/ { field := k!"targetEventRef", path := (.first [k!"TARGET-EVENT-REF"] .nil), item := (.prim .ref) }]

/-- `readInstantiationRTEEventProps`, `parser/arxml_parser.py:4944-4951` (the `InstanceEventInCompositionInstanceRef` it makes) -/
def readInstantiationRTEEventProps_InstanceEventInCompositionInstanceRef : List RSlot :=
  [/- 4948 -/ { field := k!"timestamp", path := .nil, item := (.attr k!"T" .raw) },
   /- 4948 -/ { field := k!"uuid", path := .nil, item := (.attr k!"UUID" .raw) }] ++
  /- 4949 -/ readInstanceEventInCompositionInstanceRef

/-- `readParameterDataPrototype`, `parser/arxml_parser.py:3445-3447` -/
def readParameterDataPrototype : List RSlot :=
  /- 3446 -/ readAutosarDataPrototype ++
  [/- 5392 -/ { field := 0, path := (.first [k!"INIT-VALUE", 0] .nil), item := (.guard [k!"APPLICATION-VALUE-SPECIFICATION", k!"APPLICATION-RULE-BASED-VALUE-SPECIFICATION", k!"COMPOSITE-RULE-BASED-VALUE-SPECIFICATION", k!"RECORD-VALUE-SPECIFICATION", k!"NUMERICAL-VALUE-SPECIFICATION", k!"ARRAY-VALUE-SPECIFICATION", k!"TEXT-VALUE-SPECIFICATION", k!"CONSTANT-REFERENCE"] .unbound) },
   /- 3447 -/ { field := k!"initValue", path := (.first [k!"INIT-VALUE", 0] .nil), item := (.objs [(k!"APPLICATION-VALUE-SPECIFICATION", k!"getApplicationValueSpecification_ApplicationValueSpecification"), (k!"APPLICATION-RULE-BASED-VALUE-SPECIFICATION", k!"getApplicationRuleBasedValueSpecification_ApplicationRuleBasedValueSpecification"), (k!"COMPOSITE-RULE-BASED-VALUE-SPECIFICATION", k!"getCompositeRuleBasedValueSpecification_CompositeRuleBasedValueSpecification"), (k!"RECORD-VALUE-SPECIFICATION", k!"getRecordValueSpecification_RecordValueSpecification"), (k!"NUMERICAL-VALUE-SPECIFICATION", k!"getNumericalValueSpecification_NumericalValueSpecification"), (k!"ARRAY-VALUE-SPECIFICATION", k!"getArrayValueSpecification_ArrayValueSpecification"), (k!"TEXT-VALUE-SPECIFICATION", k!"getTextValueSpecification_TextValueSpecification"), (k!"CONSTANT-REFERENCE", k!"getConstantReference_ConstantReference")]) }]

/-- `readNvBlockDescriptor`, `parser/arxml_parser.py:1095-1146` (the `ParameterDataPrototype` it makes); also 4 other methods -/
def readNvBlockDescriptor_ParameterDataPrototype : List RSlot :=
  [/- 1136 -/ { field := k!"short_name", path := (.first [k!"SHORT-NAME"] .nil), item := .name, req := .always }] ++
  /- 1137 -/ readParameterDataPrototype

end Verif.Gen.R
