import Verif.Gen.Read1
-- generated by tools/gen_codec.py; do not edit
namespace Verif.Gen.R
open Verif Verif.Model

/-- `readPossibleErrors`, `parser/arxml_parser.py:5070-5075` -/
def readPossibleErrors : List RSlot :=
  [/- 5073 -/ { field := k!"possibleErrors", path := (.all k!"POSSIBLE-ERRORS" (.all k!"APPLICATION-ERROR" .nil)), item := (.objs [(k!"APPLICATION-ERROR", k!"readPossibleErrors_ApplicationError")]), elems := true, named := true }]

/-- `readClientServerInterface`, `parser/arxml_parser.py:5113-5117` -/
def readClientServerInterface : List RSlot :=
  /- 5115 -/ readPortInterface ++
  /- 5116 -/ readClientServerInterfaceOperations ++
  /- 5117 -/ readPossibleErrors

/-- `readARPackageElements`, `parser/arxml_parser.py:9023-9318` (the `ClientServerInterface` it makes) -/
def readARPackageElements_ClientServerInterface : List RSlot :=
  [/- 9087 -/ { field := k!"short_name", path := (.first [k!"SHORT-NAME"] .nil), item := .name, req := .always }] ++
  /- 9088 -/ readClientServerInterface

/-- `readCollectionElementRefs`, `parser/arxml_parser.py:7289-7291` -/
def readCollectionElementRefs : List RSlot :=
  [/- 7291 -/ { field := k!"elementRefs", path := (.all k!"ELEMENT-REFS" (.all k!"ELEMENT-REF" .nil)), item := (.prim .ref) }]

/-- `readCollectionSourceElementRefs`, `parser/arxml_parser.py:7293-7295` -/
def readCollectionSourceElementRefs : List RSlot :=
  [/- 7295 -/ { field := k!"sourceElementRefs", path := (.all k!"SOURCE-ELEMENT-REFS" (.all k!"SOURCE-ELEMENT-REF" .nil)), item := (.prim .ref) }]

/-- `readCollection`, `parser/arxml_parser.py:7297-7303` -/
def readCollection : List RSlot :=
  /- 7299 -/ readTrigger ++
  [/- 7300 -/ { field := k!"autoCollect", path := (.first [k!"AUTO-COLLECT"] .nil), item := (.prim .lit) },
   /- 7301 -/ { field := k!"elementRole", path := (.first [k!"ELEMENT-ROLE"] .nil), item := (.prim .lit) }] ++
  /- 7302 -/ readCollectionElementRefs ++
  /- 7303 -/ readCollectionSourceElementRefs

/-- `readARPackageElements`, `parser/arxml_parser.py:9023-9318` (the `Collection` it makes) -/
def readARPackageElements_Collection : List RSlot :=
  [/- 9276 -/ { field := k!"short_name", path := (.first [k!"SHORT-NAME"] .nil), item := .name, req := .always }] ++
  /- 9277 -/ readCollection

/-- `readComplexDeviceDriverSwComponentType`, `parser/arxml_parser.py:4780-4784` -/
def readComplexDeviceDriverSwComponentType : List RSlot :=
  /- 4782 -/ readAtomicSwComponentType ++
  [/- 4784 -/ { field := k!"hardwareElementRefs", path := (.all k!"HARDWARE-ELEMENT-REFS" (.all k!"HARDWARE-ELEMENT-REF" .nil)), item := (.prim .ref) }]

/-- `readARPackageElements`, `parser/arxml_parser.py:9023-9318` (the `ComplexDeviceDriverSwComponentType` it makes) -/
def readARPackageElements_ComplexDeviceDriverSwComponentType : List RSlot :=
  [/- 9039 -/ { field := k!"short_name", path := (.first [k!"SHORT-NAME"] .nil), item := .name, req := .always }] ++
  /- 9040 -/ readComplexDeviceDriverSwComponentType

/-- `readCompositionSwComponentTypeComponents`, `parser/arxml_parser.py:4918-4925` -/
def readCompositionSwComponentTypeComponents : List RSlot :=
  [/- 4922 -/ { field := k!"components", path := (.all k!"COMPONENTS" (.all k!"SW-COMPONENT-PROTOTYPE" .nil)), item := (.objs [(k!"SW-COMPONENT-PROTOTYPE", k!"readCompositionSwComponentTypeComponents_SwComponentPrototype")]), elems := true, named := true },
   /- 4925 -/ { field := 0, path := (.all k!"COMPONENTS" (.all 0 .nil)), item := (.guard [k!"SW-COMPONENT-PROTOTYPE"] .unsupported) }]

/-- `readCompositionSwComponentTypeSwConnectors`, `parser/arxml_parser.py:4863-4876` -/
def readCompositionSwComponentTypeSwConnectors : List RSlot :=
  [/- 4867 -/ { field := k!"connectors", path := (.all k!"CONNECTORS" (.all 0 .nil)), item := (.objs [(k!"ASSEMBLY-SW-CONNECTOR", k!"readCompositionSwComponentTypeSwConnectors_AssemblySwConnector"), (k!"DELEGATION-SW-CONNECTOR", k!"readCompositionSwComponentTypeSwConnectors_DelegationSwConnector"), (k!"PASS-THROUGH-SW-CONNECTOR", k!"readCompositionSwComponentTypeSwConnectors_PassThroughSwConnector")]), elems := true, named := true },
   /- 4876 -/ { field := 0, path := (.all k!"CONNECTORS" (.all 0 .nil)), item := (.guard [k!"ASSEMBLY-SW-CONNECTOR", k!"DELEGATION-SW-CONNECTOR", k!"PASS-THROUGH-SW-CONNECTOR"] .unsupported) }]

/-- `readDataTypeMappingRefs`, `parser/arxml_parser.py:1338-1342`; also `readCompositionSwComponentTypeDataTypeMappingSet` -/
def readDataTypeMappingRefs : List RSlot :=
  [/- 1342 -/ { field := k!"dataTypeMappingRefs", path := (.first [k!"DATA-TYPE-MAPPING-REFS"] (.all k!"DATA-TYPE-MAPPING-REF" .nil)), item := (.prim .ref) }]

/-- `readCompositionSwComponentTypeConstantValueMappingSet`, `parser/arxml_parser.py:4933-4937` -/
def readCompositionSwComponentTypeConstantValueMappingSet : List RSlot :=
  [/- 4937 -/ { field := k!"constantValueMappingRefs", path := (.first [k!"CONSTANT-VALUE-MAPPING-REFS"] (.all k!"CONSTANT-VALUE-MAPPING-REF" .nil)), item := (.prim .ref) }]

/-- `readCompositionSwComponentTypeInstantiationRTEEventProps`, `parser/arxml_parser.py:4957-4964` -/
def readCompositionSwComponentTypeInstantiationRTEEventProps : List RSlot :=
  [/- 4964 -/ { field := k!"instantiationRTEEventProps", path := (.first [k!"INSTANTIATION-RTE-EVENT-PROPSS"] (.all k!"INSTANTIATION-TIMING-EVENT-PROPS" .nil)), item := (.objs [(k!"INSTANTIATION-TIMING-EVENT-PROPS", k!"readCompositionSwComponentTypeInstantiationRTEEventProps_InstantiationTimingEventProps")]) }]

/-- `readCompositionSwComponentType`, `parser/arxml_parser.py:4966-4975` -/
def readCompositionSwComponentType : List RSlot :=
  /- 4968 -/ readSwComponentType ++
  /- 4969 -/ readCompositionSwComponentTypeComponents ++
  /- 4970 -/ readCompositionSwComponentTypeSwConnectors ++
  /- 4971 -/ readDataTypeMappingRefs ++
  /- 4972 -/ readCompositionSwComponentTypeConstantValueMappingSet ++
  /- 4973 -/ readCompositionSwComponentTypeInstantiationRTEEventProps

/-- `readARPackageElements`, `parser/arxml_parser.py:9023-9318` (the `CompositionSwComponentType` it makes) -/
def readARPackageElements_CompositionSwComponentType : List RSlot :=
  [/- 9027 -/ { field := k!"short_name", path := (.first [k!"SHORT-NAME"] .nil), item := .name, req := .always }] ++
  /- 9028 -/ readCompositionSwComponentType

/-- `readCompuMethod`, `parser/arxml_parser.py:5209-5214` -/
def readCompuMethod : List RSlot :=
  /- 5211 -/ readIdentifiable ++
  [/- 5212 -/ { field := k!"unitRef", path := (.first [k!"UNIT-REF"] .nil), item := (.prim .ref) },
   /- 5213 -/ { field := k!"compuInternalToPhys", path := (.first [k!"COMPU-INTERNAL-TO-PHYS"] .nil), item := (.objs [(k!"COMPU-INTERNAL-TO-PHYS", k!"getCompu_Compu")]) },
   /- 5214 -/ { field := k!"compuPhysToInternal", path := (.first [k!"COMPU-PHYS-TO-INTERNAL"] .nil), item := (.objs [(k!"COMPU-PHYS-TO-INTERNAL", k!"getCompu_Compu")]) }]

/-- `readARPackageElements`, `parser/arxml_parser.py:9023-9318` (the `CompuMethod` it makes) -/
def readARPackageElements_CompuMethod : List RSlot :=
  [/- 9054 -/ { field := k!"short_name", path := (.first [k!"SHORT-NAME"] .nil), item := .name, req := .always }] ++
  /- 9055 -/ readCompuMethod

/-- `readConsistencyNeedsDpgDoesNotRequireCoherencys`, `parser/arxml_parser.py:3255-3258` -/
def readConsistencyNeedsDpgDoesNotRequireCoherencys : List RSlot :=
  [/- 3257 -/ { field := k!"dpgDoesNotRequireCoherency", path := (.all k!"DPG-DOES-NOT-REQUIRE-COHERENCYS" (.all k!"DATA-PROTOTYPE-GROUP" .nil)), item := (.objs [(k!"DATA-PROTOTYPE-GROUP", k!"readARPackageElements_DataPrototypeGroup")]), elems := true, named := true }]

/-- `readConsistencyNeedsDpgRequiresCoherencys`, `parser/arxml_parser.py:3260-3263` -/
def readConsistencyNeedsDpgRequiresCoherencys : List RSlot :=
  [/- 3262 -/ { field := k!"dpgRequiresCoherency", path := (.all k!"DPG-REQUIRES-COHERENCYS" (.all k!"DATA-PROTOTYPE-GROUP" .nil)), item := (.objs [(k!"DATA-PROTOTYPE-GROUP", k!"readARPackageElements_DataPrototypeGroup")]), elems := true, named := true }]

/-- `readConsistencyNeedsRegDoesNotRequireStabilitys`, `parser/arxml_parser.py:3265-3268` -/
def readConsistencyNeedsRegDoesNotRequireStabilitys : List RSlot :=
  [/- 3267 -/ { field := k!"regDoesNotRequireStability", path := (.all k!"REG-DOES-NOT-REQUIRE-STABILITYS" (.all k!"RUNNABLE-ENTITY-GROUP" .nil)), item := (.objs [(k!"RUNNABLE-ENTITY-GROUP", k!"readARPackageElements_RunnableEntityGroup")]), elems := true, named := true }]

/-- `readConsistencyNeedsRegRequiresStabilitys`, `parser/arxml_parser.py:3270-3273` -/
def readConsistencyNeedsRegRequiresStabilitys : List RSlot :=
  [/- 3272 -/ { field := k!"regRequiresStability", path := (.all k!"REG-REQUIRES-STABILITYS" (.all k!"RUNNABLE-ENTITY-GROUP" .nil)), item := (.objs [(k!"RUNNABLE-ENTITY-GROUP", k!"readARPackageElements_RunnableEntityGroup")]), elems := true, named := true }]

/-- `readConsistencyNeeds`, `parser/arxml_parser.py:3275-3281` -/
def readConsistencyNeeds : List RSlot :=
  /- 3277 -/ readIdentifiable ++
  /- 3278 -/ readConsistencyNeedsDpgDoesNotRequireCoherencys ++
  /- 3279 -/ readConsistencyNeedsDpgRequiresCoherencys ++
  /- 3280 -/ readConsistencyNeedsRegDoesNotRequireStabilitys ++
  /- 3281 -/ readConsistencyNeedsRegRequiresStabilitys

/-- `readARPackageElements`, `parser/arxml_parser.py:9023-9318` (the `ConsistencyNeeds` it makes); also `readSwComponentTypeConsistencyNeeds` -/
def readARPackageElements_ConsistencyNeeds : List RSlot :=
  [/- 9036 -/ { field := k!"short_name", path := (.first [k!"SHORT-NAME"] .nil), item := .name, req := .always }] ++
  /- 9037 -/ readConsistencyNeeds

/-- `readConstantSpecification`, `parser/arxml_parser.py:5405-5409` -/
def readConstantSpecification : List RSlot :=
  /- 5407 -/ readIdentifiable ++
  [/- 5392 -/ { field := 0, path := (.all k!"VALUE-SPEC" (.all 0 .nil)), item := (.guard [k!"APPLICATION-VALUE-SPECIFICATION", k!"APPLICATION-RULE-BASED-VALUE-SPECIFICATION", k!"COMPOSITE-RULE-BASED-VALUE-SPECIFICATION", k!"RECORD-VALUE-SPECIFICATION", k!"NUMERICAL-VALUE-SPECIFICATION", k!"ARRAY-VALUE-SPECIFICATION", k!"TEXT-VALUE-SPECIFICATION", k!"CONSTANT-REFERENCE"] .unbound) },
   /- 5409 -/ { field := k!"valueSpec", path := (.all k!"VALUE-SPEC" (.all 0 .nil)), item := (.objs [(k!"APPLICATION-VALUE-SPECIFICATION", k!"getApplicationValueSpecification_ApplicationValueSpecification"), (k!"APPLICATION-RULE-BASED-VALUE-SPECIFICATION", k!"getApplicationRuleBasedValueSpecification_ApplicationRuleBasedValueSpecification"), (k!"COMPOSITE-RULE-BASED-VALUE-SPECIFICATION", k!"getCompositeRuleBasedValueSpecification_CompositeRuleBasedValueSpecification"), (k!"RECORD-VALUE-SPECIFICATION", k!"getRecordValueSpecification_RecordValueSpecification"), (k!"NUMERICAL-VALUE-SPECIFICATION", k!"getNumericalValueSpecification_NumericalValueSpecification"), (k!"ARRAY-VALUE-SPECIFICATION", k!"getArrayValueSpecification_ArrayValueSpecification"), (k!"TEXT-VALUE-SPECIFICATION", k!"getTextValueSpecification_TextValueSpecification"), (k!"CONSTANT-REFERENCE", k!"getConstantReference_ConstantReference")]), last := true }]

/-- `readARPackageElements`, `parser/arxml_parser.py:9023-9318` (the `ConstantSpecification` it makes) -/
def readARPackageElements_ConstantSpecification : List RSlot :=
  [/- 9057 -/ { field := k!"short_name", path := (.first [k!"SHORT-NAME"] .nil), item := .name, req := .always }] ++
  /- 9058 -/ readConstantSpecification

/-- `readDataConstrRule`, `parser/arxml_parser.py:5452-5460` -/
def readDataConstrRule : List RSlot :=
  [/- 5460 -/ { field := k!"data_constr_rule", path := (.all k!"DATA-CONSTR-RULES" (.all k!"DATA-CONSTR-RULE" .nil)), item := (.objs [(k!"DATA-CONSTR-RULE", k!"readDataConstrRule_DataConstrRule")]) }]

/-- `readDataConstr`, `parser/arxml_parser.py:5462-5465` -/
def readDataConstr : List RSlot :=
  /- 5464 -/ readIdentifiable ++
  /- 5465 -/ readDataConstrRule

/-- `readARPackageElements`, `parser/arxml_parser.py:9023-9318` (the `DataConstr` it makes) -/
def readARPackageElements_DataConstr : List RSlot :=
  [/- 9060 -/ { field := k!"short_name", path := (.first [k!"SHORT-NAME"] .nil), item := .name, req := .always }] ++
  /- 9061 -/ readDataConstr

/-- `readDataPrototypeGroupDataPrototypeGroupIRefs`, `parser/arxml_parser.py:3219-3223` -/
def readDataPrototypeGroupDataPrototypeGroupIRefs : List RSlot :=
  [/- 3223 -/ { field := k!"dataPrototypeGroupIRefs", path := (.all k!"DATA-PROTOTYPE-GROUP-IREFS" (.all k!"DATA-PROTOTYPE-GROUP-IREF" .nil)), item := (.objs [(k!"DATA-PROTOTYPE-GROUP-IREF", k!"readDataPrototypeGroupDataPrototypeGroupIRefs_InnerDataPrototypeGroupInCompositionInstanceRef")]) }]

/-- `readDataPrototypeGroupImplicitDataAccessIRefs`, `parser/arxml_parser.py:3225-3229` -/
def readDataPrototypeGroupImplicitDataAccessIRefs : List RSlot :=
  [/- 3229 -/ { field := k!"implicitDataAccessIRefs", path := (.all k!"IMPLICIT-DATA-ACCESS-IREFS" (.all k!"IMPLICIT-DATA-ACCESS-IREF" .nil)), item := (.objs [(k!"IMPLICIT-DATA-ACCESS-IREF", k!"readDataPrototypeGroupImplicitDataAccessIRefs_VariableDataPrototypeInCompositionInstanceRef")]) }]

/-- `readDataPrototypeGroup`, `parser/arxml_parser.py:3231-3235` -/
def readDataPrototypeGroup : List RSlot :=
  /- 3233 -/ readIdentifiable ++
  /- 3234 -/ readDataPrototypeGroupDataPrototypeGroupIRefs ++
  /- 3235 -/ readDataPrototypeGroupImplicitDataAccessIRefs

/-- `readARPackageElements`, `parser/arxml_parser.py:9023-9318` (the `DataPrototypeGroup` it makes); also `readConsistencyNeedsDpgDoesNotRequireCoherencys`, `readConsistencyNeedsDpgRequiresCoherencys` -/
def readARPackageElements_DataPrototypeGroup : List RSlot :=
  [/- 9030 -/ { field := k!"short_name", path := (.first [k!"SHORT-NAME"] .nil), item := .name, req := .always }] ++
  /- 9031 -/ readDataPrototypeGroup

/-- `readDataTransformationSetDataTransformations`, `parser/arxml_parser.py:7195-7202` -/
def readDataTransformationSetDataTransformations : List RSlot :=
  [/- 7199 -/ { field := k!"dataTransformations", path := (.all k!"DATA-TRANSFORMATIONS" (.all k!"DATA-TRANSFORMATION" .nil)), item := (.objs [(k!"DATA-TRANSFORMATION", k!"readDataTransformationSetDataTransformations_DataTransformation")]), elems := true, named := true },
   /- 7202 -/ { field := 0, path := (.all k!"DATA-TRANSFORMATIONS" (.all 0 .nil)), item := (.guard [k!"DATA-TRANSFORMATION"] .unsupported) }]

/-- `readDataTransformationSetTransformationTechnologies`, `parser/arxml_parser.py:7269-7276` -/
def readDataTransformationSetTransformationTechnologies : List RSlot :=
  [/- 7273 -/ { field := k!"transformationTechnologies", path := (.all k!"TRANSFORMATION-TECHNOLOGYS" (.all k!"TRANSFORMATION-TECHNOLOGY" .nil)), item := (.objs [(k!"TRANSFORMATION-TECHNOLOGY", k!"readDataTransformationSetTransformationTechnologies_TransformationTechnology")]), elems := true, named := true },
   /- 7276 -/ { field := 0, path := (.all k!"TRANSFORMATION-TECHNOLOGYS" (.all 0 .nil)), item := (.guard [k!"TRANSFORMATION-TECHNOLOGY"] .unsupported) }]

/-- `readDataTransformationSet`, `parser/arxml_parser.py:7278-7282` -/
def readDataTransformationSet : List RSlot :=
  /- 7280 -/ readTrigger ++
  /- 7281 -/ readDataTransformationSetDataTransformations ++
  /- 7282 -/ readDataTransformationSetTransformationTechnologies

/-- `readARPackageElements`, `parser/arxml_parser.py:9023-9318` (the `DataTransformationSet` it makes) -/
def readARPackageElements_DataTransformationSet : List RSlot :=
  [/- 9270 -/ { field := k!"short_name", path := (.first [k!"SHORT-NAME"] .nil), item := .name, req := .always }] ++
  /- 9271 -/ readDataTransformationSet

/-- `readDataTypeMaps`, `parser/arxml_parser.py:4977-4986` -/
def readDataTypeMaps : List RSlot :=
  [/- 4983 -/ { field := k!"dataTypeMaps", path := (.all k!"DATA-TYPE-MAPS" (.all k!"DATA-TYPE-MAP" .nil)), item := (.objs [(k!"DATA-TYPE-MAP", k!"readDataTypeMaps_DataTypeMap")]) }]

/-- `readModeRequestTypeMaps`, `parser/arxml_parser.py:4988-4994` -/
def readModeRequestTypeMaps : List RSlot :=
  [/- 4994 -/ { field := k!"modeRequestTypeMaps", path := (.all k!"MODE-REQUEST-TYPE-MAPS" (.all k!"MODE-REQUEST-TYPE-MAP" .nil)), item := (.objs [(k!"MODE-REQUEST-TYPE-MAP", k!"readModeRequestTypeMaps_ModeRequestTypeMap")]) }]

/-- `readDataTypeMappingSet`, `parser/arxml_parser.py:4996-5000` -/
def readDataTypeMappingSet : List RSlot :=
  /- 4998 -/ readIdentifiable ++
  /- 4999 -/ readDataTypeMaps ++
  /- 5000 -/ readModeRequestTypeMaps

/-- `readARPackageElements`, `parser/arxml_parser.py:9023-9318` (the `DataTypeMappingSet` it makes) -/
def readARPackageElements_DataTypeMappingSet : List RSlot :=
  [/- 9120 -/ { field := k!"short_name", path := (.first [k!"SHORT-NAME"] .nil), item := .name, req := .always }] ++
  /- 9121 -/ readDataTypeMappingSet

/-- `readPdu`, `parser/arxml_parser.py:6700-6703` -/
def readPdu : List RSlot :=
  /- 6701 -/ readIdentifiable ++
  [/- 6702 -/ { field := k!"hasDynamicLength", path := (.first [k!"HAS-DYNAMIC-LENGTH"] .nil), item := (.prim .boolean) },
   /- 6703 -/ { field := k!"length", path := (.first [k!"LENGTH"] .nil), item := (.prim .numerical) }]

/-- `readIPdu`, `parser/arxml_parser.py:6743-6745` -/
def readIPdu : List RSlot :=
  /- 6744 -/ readPdu ++
  [/- 6745 -/ { field := k!"containedIPduProps", path := (.first [k!"CONTAINED-I-PDU-PROPS"] .nil), item := (.objs [(k!"CONTAINED-I-PDU-PROPS", k!"readContainedIPduProps_ContainedIPduProps")]) }]

/-- `readDcmIPdu`, `parser/arxml_parser.py:6751-6754` -/
def readDcmIPdu : List RSlot :=
  /- 6753 -/ readIPdu ++
  [/- 6754 -/ { field := k!"diagPduType", path := (.first [k!"DIAG-PDU-TYPE"] .nil), item := (.prim .lit) }]

/-- `readARPackageElements`, `parser/arxml_parser.py:9023-9318` (the `DcmIPdu` it makes) -/
def readARPackageElements_DcmIPdu : List RSlot :=
  [/- 9144 -/ { field := k!"short_name", path := (.first [k!"SHORT-NAME"] .nil), item := .name, req := .always }] ++
  /- 9145 -/ readDcmIPdu

/-- `readDiagnosticConnectionFunctionalRequestRefs`, `parser/arxml_parser.py:6377-6379` -/
def readDiagnosticConnectionFunctionalRequestRefs : List RSlot :=
  [/- 6379 -/ { field := k!"functionalRequestRefs", path := (.all k!"FUNCTIONAL-REQUEST-REFS" (.all k!"FUNCTIONAL-REQUEST-REF" .nil)), item := (.prim .ref) }]

/-- `readDiagnosticConnection`, `parser/arxml_parser.py:6381-6386` -/
def readDiagnosticConnection : List RSlot :=
  /- 6383 -/ readIdentifiable ++
  /- 6384 -/ readDiagnosticConnectionFunctionalRequestRefs ++
  [/- 6385 -/ { field := k!"physicalRequestRef", path := (.first [k!"PHYSICAL-REQUEST-REF"] .nil), item := (.prim .ref) },
   /- 6386 -/ { field := k!"responseOnEventRef", path := (.first [k!"RESPONSE-REF"] .nil), item := (.prim .ref) }]

/-- `readARPackageElements`, `parser/arxml_parser.py:9023-9318` (the `DiagnosticConnection` it makes) -/
def readARPackageElements_DiagnosticConnection : List RSlot :=
  [/- 9222 -/ { field := k!"short_name", path := (.first [k!"SHORT-NAME"] .nil), item := .name, req := .always }] ++
  /- 9223 -/ readDiagnosticConnection

/-- `readDiagnosticServiceTableDiagnosticConnectionRefs`, `parser/arxml_parser.py:6388-6390` -/
def readDiagnosticServiceTableDiagnosticConnectionRefs : List RSlot :=
  [/- 6390 -/ { field := k!"diagnosticConnectionRefs", path := (.all k!"DIAGNOSTIC-CONNECTIONS" (.all k!"DIAGNOSTIC-CONNECTION-REF-CONDITIONAL" (.all k!"DIAGNOSTIC-CONNECTION-REF" .nil))), item := (.prim .ref) }]

/-- `readDiagnosticServiceTable`, `parser/arxml_parser.py:6392-6396` -/
def readDiagnosticServiceTable : List RSlot :=
  /- 6394 -/ readIdentifiable ++
  /- 6395 -/ readDiagnosticServiceTableDiagnosticConnectionRefs ++
  [/- 6396 -/ { field := k!"ecuInstanceRef", path := (.first [k!"ECU-INSTANCE-REF"] .nil), item := (.prim .ref) }]

/-- `readARPackageElements`, `parser/arxml_parser.py:9023-9318` (the `DiagnosticServiceTable` it makes) -/
def readARPackageElements_DiagnosticServiceTable : List RSlot :=
  [/- 9225 -/ { field := k!"short_name", path := (.first [k!"SHORT-NAME"] .nil), item := .name, req := .always }] ++
  /- 9226 -/ readDiagnosticServiceTable

/-- `readDoIpTpConfigDoIpLogicAddresses`, `parser/arxml_parser.py:6533-6540` -/
def readDoIpTpConfigDoIpLogicAddresses : List RSlot :=
  [/- 6537 -/ { field := k!"doIpLogicAddresses", path := (.all k!"DO-IP-LOGIC-ADDRESSS" (.all k!"DO-IP-LOGIC-ADDRESS" .nil)), item := (.objs [(k!"DO-IP-LOGIC-ADDRESS", k!"readDoIpTpConfigDoIpLogicAddresses_DoIpLogicAddress")]), elems := true, named := true },
   /- 6540 -/ { field := 0, path := (.all k!"DO-IP-LOGIC-ADDRESSS" (.all 0 .nil)), item := (.guard [k!"DO-IP-LOGIC-ADDRESS"] .unsupported) }]

/-- `readDoIpTpConfigTpConnections`, `parser/arxml_parser.py:6548-6556` -/
def readDoIpTpConfigTpConnections : List RSlot :=
  [/- 6554 -/ { field := k!"tpConnections", path := (.all k!"TP-CONNECTIONS" (.all k!"DO-IP-TP-CONNECTION" .nil)), item := (.objs [(k!"DO-IP-TP-CONNECTION", k!"readDoIpTpConfigTpConnections_DoIpTpConnection")]) },
   /- 6556 -/ { field := 0, path := (.all k!"TP-CONNECTIONS" (.all 0 .nil)), item := (.guard [k!"DO-IP-TP-CONNECTION"] .unsupported) }]

/-- `readDoIpTpConfig`, `parser/arxml_parser.py:6558-6562` -/
def readDoIpTpConfig : List RSlot :=
  /- 6560 -/ readTpConfig ++
  /- 6561 -/ readDoIpTpConfigDoIpLogicAddresses ++
  /- 6562 -/ readDoIpTpConfigTpConnections

/-- `readARPackageElements`, `parser/arxml_parser.py:9023-9318` (the `DoIpTpConfig` it makes) -/
def readARPackageElements_DoIpTpConfig : List RSlot :=
  [/- 9252 -/ { field := k!"short_name", path := (.first [k!"SHORT-NAME"] .nil), item := .name, req := .always }] ++
  /- 9253 -/ readDoIpTpConfig

/-- `readDocumentation`, `parser/arxml_parser.py:4681-4688` -/
def readDocumentation : List RSlot :=
  /- 4682 -/ readTrigger ++
  [/- 4684 -/ { field := k!"contexts", path := (.all k!"CONTEXTS" (.all k!"DOCUMENTATION-CONTEXT" .nil)), item := (.objs [(k!"DOCUMENTATION-CONTEXT", k!"readDocumentationContext_DocumentationContext")]) },
   /- 4687 -/ { field := k!"documentationContent", path := (.first [k!"DOCUMENTATION-CONTENT"] .nil), item := (.objs [(k!"DOCUMENTATION-CONTENT", k!"readPredefinedChapter_PredefinedChapter")]) }]

/-- `readARPackageElements`, `parser/arxml_parser.py:9023-9318` (the `Documentation` it makes) -/
def readARPackageElements_Documentation : List RSlot :=
  [/- 9228 -/ { field := k!"short_name", path := (.first [k!"SHORT-NAME"] .nil), item := .name, req := .always }] ++
  /- 9229 -/ readDocumentation

/-- `readE2EProfileCompatibilityProps`, `parser/arxml_parser.py:7284-7287` -/
def readE2EProfileCompatibilityProps : List RSlot :=
  /- 7286 -/ readTrigger ++
  [/- 7287 -/ { field := k!"transitToInvalidExtended", path := (.first [k!"TRANSIT-TO-INVALID-EXTENDED"] .nil), item := (.prim .boolean) }]

/-- `readARPackageElements`, `parser/arxml_parser.py:9023-9318` (the `E2EProfileCompatibilityProps` it makes) -/
def readARPackageElements_E2EProfileCompatibilityProps : List RSlot :=
  [/- 9273 -/ { field := k!"short_name", path := (.first [k!"SHORT-NAME"] .nil), item := .name, req := .always }] ++
  /- 9274 -/ readE2EProfileCompatibilityProps

/-- `readEcuAbstractionSwComponentTypeHardwareElementRefs`, `parser/arxml_parser.py:4772-4774` -/
def readEcuAbstractionSwComponentTypeHardwareElementRefs : List RSlot :=
  [/- 4774 -/ { field := k!"hardwareElementRefs", path := (.all k!"HARDWARE-ELEMENT-REFS" (.all k!"HARDWARE-ELEMENT-REF" .nil)), item := (.prim .ref) }]

/-- `readEcuAbstractionSwComponentType`, `parser/arxml_parser.py:4767-4770` -/
def readEcuAbstractionSwComponentType : List RSlot :=
  /- 4769 -/ readAtomicSwComponentType ++
  /- 4770 -/ readEcuAbstractionSwComponentTypeHardwareElementRefs

/-- `readARPackageElements`, `parser/arxml_parser.py:9023-9318` (the `EcuAbstractionSwComponentType` it makes) -/
def readARPackageElements_EcuAbstractionSwComponentType : List RSlot :=
  [/- 9093 -/ { field := k!"short_name", path := (.first [k!"SHORT-NAME"] .nil), item := .name, req := .always }] ++
  /- 9094 -/ readEcuAbstractionSwComponentType

/-- `readEcuInstanceAssociatedComIPduGroupRefs`, `parser/arxml_parser.py:8203-8205` -/
def readEcuInstanceAssociatedComIPduGroupRefs : List RSlot :=
  [/- 8205 -/ { field := k!"associatedComIPduGroupRefs", path := (.all k!"ASSOCIATED-COM-I-PDU-GROUP-REFS" (.all k!"ASSOCIATED-COM-I-PDU-GROUP-REF" .nil)), item := (.prim .ref) }]

/-- `readEcuInstanceAssociatedConsumedProvidedServiceInstanceGroupRefs`, `parser/arxml_parser.py:8207-8209` -/
def readEcuInstanceAssociatedConsumedProvidedServiceInstanceGroupRefs : List RSlot :=
  [/- 8209 -/ { field := k!"associatedConsumedProvidedServiceInstanceGroupRefs", path := (.all k!"ASSOCIATED-CONSUMED-PROVIDED-SERVICE-INSTANCE-GROUP-REFS" (.all k!"ASSOCIATED-CONSUMED-PROVIDED-SERVICE-INSTANCE-GROUP-REF" .nil)), item := (.prim .ref) }]

/-- `readEcuInstanceAssociatedPdurIPduGroupRefs`, `parser/arxml_parser.py:8211-8213` -/
def readEcuInstanceAssociatedPdurIPduGroupRefs : List RSlot :=
  [/- 8213 -/ { field := k!"associatedPdurIPduGroupRefs", path := (.all k!"ASSOCIATED-PDUR-I-PDU-GROUP-REFS" (.all k!"ASSOCIATED-PDUR-I-PDU-GROUP-REF" .nil)), item := (.prim .ref) }]

/-- `readEcuInstanceCommControllers`, `parser/arxml_parser.py:8108-8125` -/
def readEcuInstanceCommControllers : List RSlot :=
  [/- 8113 -/ { field := k!"elements", path := (.all k!"COMM-CONTROLLERS" (.all 0 .nil)), item := (.objs [(k!"CAN-COMMUNICATION-CONTROLLER", k!"readEcuInstanceCommControllers_CanCommunicationController"), (k!"ETHERNET-COMMUNICATION-CONTROLLER", k!"readEcuInstanceCommControllers_EthernetCommunicationController"), (k!"LIN-MASTER", k!"readEcuInstanceCommControllers_LinMaster"), (k!"FLEXRAY-COMMUNICATION-CONTROLLER", k!"readEcuInstanceCommControllers_FlexrayCommunicationController")]), elems := true, named := true },
   /- 8125 -/ { field := 0, path := (.all k!"COMM-CONTROLLERS" (.all 0 .nil)), item := (.guard [k!"CAN-COMMUNICATION-CONTROLLER", k!"ETHERNET-COMMUNICATION-CONTROLLER", k!"LIN-MASTER", k!"FLEXRAY-COMMUNICATION-CONTROLLER"] .invalid) }]

/-- `readEcuInstanceConnectors`, `parser/arxml_parser.py:8184-8201` -/
def readEcuInstanceConnectors : List RSlot :=
  [/- 8189 -/ { field := k!"elements", path := (.all k!"CONNECTORS" (.all 0 .nil)), item := (.objs [(k!"CAN-COMMUNICATION-CONNECTOR", k!"readEcuInstanceConnectors_CanCommunicationConnector"), (k!"ETHERNET-COMMUNICATION-CONNECTOR", k!"readEcuInstanceConnectors_EthernetCommunicationConnector"), (k!"LIN-COMMUNICATION-CONNECTOR", k!"readEcuInstanceConnectors_LinCommunicationConnector"), (k!"FLEXRAY-COMMUNICATION-CONNECTOR", k!"readEcuInstanceConnectors_FlexrayCommunicationConnector")]), elems := true, named := true },
   /- 8201 -/ { field := 0, path := (.all k!"CONNECTORS" (.all 0 .nil)), item := (.guard [k!"CAN-COMMUNICATION-CONNECTOR", k!"ETHERNET-COMMUNICATION-CONNECTOR", k!"LIN-COMMUNICATION-CONNECTOR", k!"FLEXRAY-COMMUNICATION-CONNECTOR"] .unsupported) }]

/-- `readEcuInstanceEcuTaskProxyRefs`, `parser/arxml_parser.py:8215-8217` -/
def readEcuInstanceEcuTaskProxyRefs : List RSlot :=
  [/- 8217 -/ { field := k!"ecuTaskProxyRefs", path := (.all k!"ECU-TASK-PROXY-REFS" (.all k!"ECU-TASK-PROXY-REF" .nil)), item := (.prim .ref) }]

/-- `readEcuInstanceFirewallRuleRefs`, `parser/arxml_parser.py:8219-8221` -/
def readEcuInstanceFirewallRuleRefs : List RSlot :=
  [/- 8221 -/ { field := k!"firewallRuleRefs", path := (.all k!"FIREWALL-RULE-REFS" (.all k!"FIREWALL-RULE-REF" .nil)), item := (.prim .ref) }]

/-- `readEcuInstance`, `parser/arxml_parser.py:8223-8247` -/
def readEcuInstance : List RSlot :=
  /- 8225 -/ readIdentifiable ++
  /- 8226 -/ readEcuInstanceAssociatedComIPduGroupRefs ++
  /- 8227 -/ readEcuInstanceAssociatedConsumedProvidedServiceInstanceGroupRefs ++
  /- 8228 -/ readEcuInstanceAssociatedPdurIPduGroupRefs ++
  [/- 8229 -/ { field := k!"channelSynchronousWakeup", path := (.first [k!"CHANNEL-SYNCHRONOUS-WAKEUP"] .nil), item := (.prim .boolean) },
   /- 8230 -/ { field := k!"comConfigurationGwTimeBase", path := (.first [k!"COM-CONFIGURATION-GW-TIME-BASE"] .nil), item := (.prim .time) },
   /- 8231 -/ { field := k!"comConfigurationRxTimeBase", path := (.first [k!"COM-CONFIGURATION-RX-TIME-BASE"] .nil), item := (.prim .time) },
   /- 8232 -/ { field := k!"comConfigurationTxTimeBase", path := (.first [k!"COM-CONFIGURATION-TX-TIME-BASE"] .nil), item := (.prim .time) },
   /- 8233 -/ { field := k!"comEnableMDTForCyclicTransmission", path := (.first [k!"COM-ENABLE-MDT-FOR-CYCLIC-TRANSMISSION"] .nil), item := (.prim .boolean) }] ++
  /- 8234 -/ readEcuInstanceCommControllers ++
  /- 8235 -/ readEcuInstanceConnectors ++
  /- 8236 -/ readEcuInstanceEcuTaskProxyRefs ++
  [/- 8237 -/ { field := k!"ethSwitchPortGroupDerivation", path := (.first [k!"ETH-SWITCH-PORT-GROUP-DERIVATION"] .nil), item := (.prim .boolean) }] ++
  /- 8238 -/ readEcuInstanceFirewallRuleRefs ++
  [/- 8239 -/ { field := k!"pncNmRequest", path := (.first [k!"PNC-NM-REQUEST"] .nil), item := (.prim .boolean) },
   /- 8240 -/ { field := k!"pncPrepareSleepTimer", path := (.first [k!"PNC-PREPARE-SLEEP-TIMER"] .nil), item := (.prim .time) },
   /- 8241 -/ { field := k!"pncSynchronousWakeup", path := (.first [k!"PNC-SYNCHRONOUS-WAKEUP"] .nil), item := (.prim .boolean) },
   /- 8242 -/ { field := k!"pnResetTime", path := (.first [k!"PN-RESET-TIME"] .nil), item := (.prim .time) },
   /- 8243 -/ { field := k!"sleepModeSupported", path := (.first [k!"SLEEP-MODE-SUPPORTED"] .nil), item := (.prim .boolean) },
   /- 8244 -/ { field := k!"tcpIpIcmpPropsRef", path := (.first [k!"TCP-IP-ICMP-PROPS"] .nil), item := (.prim .ref) },
   /- 8245 -/ { field := k!"tcpIpPropsRef", path := (.first [k!"TCP-IP-PROPS"] .nil), item := (.prim .ref) },
   /- 8246 -/ { field := k!"v2xSupported", path := (.first [k!"V-2-X-SUPPORTED"] .nil), item := (.prim .lit) },
   /- 8247 -/ { field := k!"wakeUpOverBusSupported", path := (.first [k!"WAKE-UP-OVER-BUS-SUPPORTED"] .nil), item := (.prim .boolean) }]

/-- `readARPackageElements`, `parser/arxml_parser.py:9023-9318` (the `EcuInstance` it makes) -/
def readARPackageElements_EcuInstance : List RSlot :=
  [/- 9162 -/ { field := k!"short_name", path := (.first [k!"SHORT-NAME"] .nil), item := .name, req := .always }] ++
  /- 9163 -/ readEcuInstance

/-- `readEcucDefinitionCollection`, `parser/arxml_parser.py:7811-7816` -/
def readEcucDefinitionCollection : List RSlot :=
  /- 7813 -/ readTrigger ++
  [/- 7816 -/ { field := k!"moduleRefs", path := (.all k!"MODULE-REFS" (.all k!"MODULE-REF" .nil)), item := (.prim .ref) }]

/-- `readARPackageElements`, `parser/arxml_parser.py:9023-9318` (the `EcucDefinitionCollection` it makes) -/
def readARPackageElements_EcucDefinitionCollection : List RSlot :=
  [/- 9291 -/ { field := k!"short_name", path := (.first [k!"SHORT-NAME"] .nil), item := .name, req := .always }] ++
  /- 9292 -/ readEcucDefinitionCollection

/-- `readEcucDestinationUriDefSet`, `parser/arxml_parser.py:7420-7428` -/
def readEcucDestinationUriDefSet : List RSlot :=
  [/- 7425 -/ { field := k!"destinationUriDefs", path := (.all k!"DESTINATION-URI-DEFS" (.all k!"ECUC-DESTINATION-URI-DEF" .nil)), item := (.objs [(k!"ECUC-DESTINATION-URI-DEF", k!"readEcucDestinationUriDefSet_EcucDestinationUriDef")]), named := true, fresh := true },
   /- 7428 -/ { field := 0, path := (.all k!"DESTINATION-URI-DEFS" (.all 0 .nil)), item := (.guard [k!"ECUC-DESTINATION-URI-DEF"] .unsupported) }]

/-- `readARPackageElements`, `parser/arxml_parser.py:9023-9318` (the `EcucDestinationUriDefSet` it makes) -/
def readARPackageElements_EcucDestinationUriDefSet : List RSlot :=
  [/- 9294 -/ { field := k!"short_name", path := (.first [k!"SHORT-NAME"] .nil), item := .name, req := .always }] ++
  /- 9295 -/ readEcucDestinationUriDefSet

/-- `readEcucModuleConfigurationValuesEcucContainerValue`, `parser/arxml_parser.py:8428-8432` -/
def readEcucModuleConfigurationValuesEcucContainerValue : List RSlot :=
  [/- 8431 -/ { field := k!"containers", path := .nil, item := (.objs [(k!"ECUC-CONTAINER-VALUE", k!"readEcucContainerValueEcucContainerValue_EcucContainerValue")]), elems := true, named := true }]

/-- `readEcucModuleConfigurationValuesContainers`, `parser/arxml_parser.py:8434-8440` -/
def readEcucModuleConfigurationValuesContainers : List RSlot :=
  /- 8438 -/ via (.all k!"CONTAINERS" (.all k!"ECUC-CONTAINER-VALUE" .nil)) readEcucModuleConfigurationValuesEcucContainerValue ++
  [/- 8440 -/ { field := 0, path := (.all k!"CONTAINERS" (.all 0 .nil)), item := (.guard [k!"ECUC-CONTAINER-VALUE"] .unsupported) }]

/-- `readEcucModuleConfigurationValues`, `parser/arxml_parser.py:8442-8450` -/
def readEcucModuleConfigurationValues : List RSlot :=
  /- 8444 -/ readIdentifiable ++
  [/- 8445 -/ { field := k!"definitionRef", path := (.first [k!"DEFINITION-REF"] .nil), item := (.prim .ref) },
   /- 8446 -/ { field := k!"ecucDefEdition", path := (.first [k!"ECUC-DEF-EDITION"] .nil), item := (.prim .lit) },
   /- 8447 -/ { field := k!"implementationConfigVariant", path := (.first [k!"IMPLEMENTATION-CONFIG-VARIANT"] .nil), item := (.prim .lit) },
   /- 8448 -/ { field := k!"moduleDescriptionRef", path := (.first [k!"MODULE-DESCRIPTION-REF"] .nil), item := (.prim .ref) },
   /- 8449 -/ { field := k!"postBuildVariantUsed", path := (.first [k!"POST-BUILD-VARIANT-USED"] .nil), item := (.prim .boolean) }] ++
  /- 8450 -/ readEcucModuleConfigurationValuesContainers

/-- `readARPackageElements`, `parser/arxml_parser.py:9023-9318` (the `EcucModuleConfigurationValues` it makes) -/
def readARPackageElements_EcucModuleConfigurationValues : List RSlot :=
  [/- 9198 -/ { field := k!"short_name", path := (.first [k!"SHORT-NAME"] .nil), item := .name, req := .always }] ++
  /- 9199 -/ readEcucModuleConfigurationValues

/-- `readEcucValidationConditions`, `parser/arxml_parser.py:7603-7606` -/
def readEcucValidationConditions : List RSlot :=
  [/- 7606 -/ { field := k!"ecucValidationConds", path := (.all k!"ECUC-VALIDATION-CONDS" (.all k!"ECUC-VALIDATION-CONDITION" .nil)), item := (.objs [(k!"ECUC-VALIDATION-CONDITION", k!"readEcucValidationCondition_EcucValidationCondition")]) }]

/-- `readEcucDefinitionElement`, `parser/arxml_parser.py:7358-7364` -/
def readEcucDefinitionElement : List RSlot :=
  /- 7359 -/ readIdentifiable ++
  [/- 7360 -/ { field := k!"ecucCond", path := (.first [k!"ECUC-COND"] .nil), item := (.objs [(k!"ECUC-COND", k!"readEcucConditionSpecification_EcucConditionSpecification")]) }] ++
  /- 7361 -/ readEcucValidationConditions ++
  [/- 7362 -/ { field := k!"lowerMultiplicity", path := (.first [k!"LOWER-MULTIPLICITY"] .nil), item := (.prim .positive) },
   /- 7363 -/ { field := k!"upperMultiplicity", path := (.first [k!"UPPER-MULTIPLICITY"] .nil), item := (.prim .positive) },
   /- 7364 -/ { field := k!"scope", path := (.first [k!"SCOPE"] .nil), item := (.prim .lit) }]

/-- `readEcucModuleDefSupportedConfigVariants`, `parser/arxml_parser.py:7366-7368` -/
def readEcucModuleDefSupportedConfigVariants : List RSlot :=
  [/- 7368 -/ { field := k!"supportedConfigVariants", path := (.all k!"SUPPORTED-CONFIG-VARIANTS" (.all k!"SUPPORTED-CONFIG-VARIANT" .nil)), item := (.prim .litPlain) }]

/-- `readEcucModuleDefContainers`, `parser/arxml_parser.py:7790-7800` -/
def readEcucModuleDefContainers : List RSlot :=
  [/- 7794 -/ { field := k!"containers", path := (.all k!"CONTAINERS" (.all 0 .nil)), item := (.objs [(k!"ECUC-PARAM-CONF-CONTAINER-DEF", k!"readEcucModuleDefContainers_EcucParamConfContainerDef"), (k!"ECUC-CHOICE-CONTAINER-DEF", k!"readEcucModuleDefContainers_EcucChoiceContainerDef")]), elems := true, named := true },
   /- 7800 -/ { field := 0, path := (.all k!"CONTAINERS" (.all 0 .nil)), item := (.guard [k!"ECUC-PARAM-CONF-CONTAINER-DEF", k!"ECUC-CHOICE-CONTAINER-DEF"] .unsupported) }]

/-- `readEcucModuleDef`, `parser/arxml_parser.py:7802-7809` -/
def readEcucModuleDef : List RSlot :=
  /- 7804 -/ readEcucDefinitionElement ++
  [/- 7805 -/ { field := k!"apiServicePrefix", path := (.first [k!"API-SERVICE-PREFIX"] .nil), item := (.prim .lit) },
   /- 7806 -/ { field := k!"postBuildVariantSupport", path := (.first [k!"POST-BUILD-VARIANT-SUPPORT"] .nil), item := (.prim .boolean) },
   /- 7807 -/ { field := k!"refinedModuleDefRef", path := (.first [k!"REFINED-MODULE-DEF-REF"] .nil), item := (.prim .ref) }] ++
  /- 7808 -/ readEcucModuleDefSupportedConfigVariants ++
  /- 7809 -/ readEcucModuleDefContainers

/-- `readARPackageElements`, `parser/arxml_parser.py:9023-9318` (the `EcucModuleDef` it makes) -/
def readARPackageElements_EcucModuleDef : List RSlot :=
  [/- 9288 -/ { field := k!"short_name", path := (.first [k!"SHORT-NAME"] .nil), item := .name, req := .always }] ++
  /- 9289 -/ readEcucModuleDef

/-- `readEcucValueCollectionEcucValues`, `parser/arxml_parser.py:8326-8331` -/
def readEcucValueCollectionEcucValues : List RSlot :=
  [/- 8330 -/ { field := k!"ecucValueRefs", path := (.all k!"ECUC-VALUES" (.all k!"ECUC-MODULE-CONFIGURATION-VALUES-REF-CONDITIONAL" (.first [k!"ECUC-MODULE-CONFIGURATION-VALUES-REF"] .nil))), item := (.prim .ref) }]

/-- `readEcucValueCollection`, `parser/arxml_parser.py:8333-8337` -/
def readEcucValueCollection : List RSlot :=
  /- 8335 -/ readIdentifiable ++
  [/- 8336 -/ { field := k!"ecuExtractRef", path := (.first [k!"ECU-EXTRACT-REF"] .nil), item := (.prim .ref) }] ++
  /- 8337 -/ readEcucValueCollectionEcucValues

/-- `readARPackageElements`, `parser/arxml_parser.py:9023-9318` (the `EcucValueCollection` it makes) -/
def readARPackageElements_EcucValueCollection : List RSlot :=
  [/- 9195 -/ { field := k!"short_name", path := (.first [k!"SHORT-NAME"] .nil), item := .name, req := .always }] ++
  /- 9196 -/ readEcucValueCollection

/-- `readEndToEndProtection`, `parser/arxml_parser.py:5541-5548` -/
def readEndToEndProtection : List RSlot :=
  [/- 5544 -/ { field := k!"elements", path := .nil, item := (.objs [(k!"END-TO-END-PROTECTION", k!"readEndToEndProtection_EndToEndProtection")]), elems := true, named := true }]

/-- `readEndToEndProtections`, `parser/arxml_parser.py:5550-5556` -/
def readEndToEndProtections : List RSlot :=
  /- 5554 -/ via (.all k!"END-TO-END-PROTECTIONS" (.all k!"END-TO-END-PROTECTION" .nil)) readEndToEndProtection ++
  [/- 5556 -/ { field := 0, path := (.all k!"END-TO-END-PROTECTIONS" (.all 0 .nil)), item := (.guard [k!"END-TO-END-PROTECTION"] .unsupported) }]

/-- `readEndToEndProtectionSet`, `parser/arxml_parser.py:5558-5561` -/
def readEndToEndProtectionSet : List RSlot :=
  /- 5560 -/ readIdentifiable ++
  /- 5561 -/ readEndToEndProtections

/-- `readARPackageElements`, `parser/arxml_parser.py:9023-9318` (the `EndToEndProtectionSet` it makes) -/
def readARPackageElements_EndToEndProtectionSet : List RSlot :=
  [/- 9063 -/ { field := k!"short_name", path := (.first [k!"SHORT-NAME"] .nil), item := .name, req := .always }] ++
  /- 9064 -/ readEndToEndProtectionSet

/-- `readEthernetClusterMacMulticastGroups`, `parser/arxml_parser.py:6360-6367` -/
def readEthernetClusterMacMulticastGroups : List RSlot :=
  [/- 6364 -/ { field := k!"macMulticastGroups", path := (.all k!"MAC-MULTICAST-GROUPS" (.all k!"MAC-MULTICAST-GROUP" .nil)), item := (.objs [(k!"MAC-MULTICAST-GROUP", k!"readEthernetClusterMacMulticastGroups_MacMulticastGroup")]), elems := true, named := true, fresh := true },
   /- 6367 -/ { field := 0, path := (.all k!"MAC-MULTICAST-GROUPS" (.all 0 .nil)), item := (.guard [k!"MAC-MULTICAST-GROUP"] .unsupported) }]

/-- `readEthernetCluster`, `parser/arxml_parser.py:6369-6375` -/
def readEthernetCluster : List RSlot :=
  /- 6371 -/ readIdentifiable ++
  /- 6374 -/ via (.first [k!"ETHERNET-CLUSTER-VARIANTS", k!"ETHERNET-CLUSTER-CONDITIONAL"] .nil) readCommunicationCluster ++
  /- 6375 -/ via (.first [k!"ETHERNET-CLUSTER-VARIANTS", k!"ETHERNET-CLUSTER-CONDITIONAL"] .nil) readEthernetClusterMacMulticastGroups

/-- `readARPackageElements`, `parser/arxml_parser.py:9023-9318` (the `EthernetCluster` it makes) -/
def readARPackageElements_EthernetCluster : List RSlot :=
  [/- 9219 -/ { field := k!"short_name", path := (.first [k!"SHORT-NAME"] .nil), item := .name, req := .always }] ++
  /- 9220 -/ readEthernetCluster

/-- `readFlatMapInstances`, `parser/arxml_parser.py:8911-8918` -/
def readFlatMapInstances : List RSlot :=
  [/- 8915 -/ { field := k!"instances", path := (.all k!"INSTANCES" (.all k!"FLAT-INSTANCE-DESCRIPTOR" .nil)), item := (.objs [(k!"FLAT-INSTANCE-DESCRIPTOR", k!"readFlatMapInstances_FlatInstanceDescriptor")]), elems := true, named := true, fresh := true },
   /- 8918 -/ { field := 0, path := (.all k!"INSTANCES" (.all 0 .nil)), item := (.guard [k!"FLAT-INSTANCE-DESCRIPTOR"] .unsupported) }]

/-- `readFlatMap`, `parser/arxml_parser.py:8920-8923` -/
def readFlatMap : List RSlot :=
  /- 8922 -/ readIdentifiable ++
  /- 8923 -/ readFlatMapInstances

/-- `readARPackageElements`, `parser/arxml_parser.py:9023-9318` (the `FlatMap` it makes) -/
def readARPackageElements_FlatMap : List RSlot :=
  [/- 9213 -/ { field := k!"short_name", path := (.first [k!"SHORT-NAME"] .nil), item := .name, req := .always }] ++
  /- 9214 -/ readFlatMap

/-- `readFlexrayCluster`, `parser/arxml_parser.py:6309-6349` -/
def readFlexrayCluster : List RSlot :=
  /- 6311 -/ readIdentifiable ++
  /- 6314 -/ via (.first [k!"FLEXRAY-CLUSTER-VARIANTS", k!"FLEXRAY-CLUSTER-CONDITIONAL"] .nil) readCommunicationCluster ++
  [/- 6315 -/ { field := k!"actionPointOffset", path := (.first [k!"FLEXRAY-CLUSTER-VARIANTS", k!"FLEXRAY-CLUSTER-CONDITIONAL"] (.first [k!"ACTION-POINT-OFFSET"] .nil)), item := (.prim .integer) },
   /- 6316 -/ { field := k!"bit", path := (.first [k!"FLEXRAY-CLUSTER-VARIANTS", k!"FLEXRAY-CLUSTER-CONDITIONAL"] (.first [k!"BIT"] .nil)), item := (.prim .time) },
   /- 6317 -/ { field := k!"casRxLowMax", path := (.first [k!"FLEXRAY-CLUSTER-VARIANTS", k!"FLEXRAY-CLUSTER-CONDITIONAL"] (.first [k!"CAS-RX-LOW-MAX"] .nil)), item := (.prim .integer) },
   /- 6318 -/ { field := k!"coldStartAttempts", path := (.first [k!"FLEXRAY-CLUSTER-VARIANTS", k!"FLEXRAY-CLUSTER-CONDITIONAL"] (.first [k!"COLD-START-ATTEMPTS"] .nil)), item := (.prim .integer) },
   /- 6319 -/ { field := k!"cycle", path := (.first [k!"FLEXRAY-CLUSTER-VARIANTS", k!"FLEXRAY-CLUSTER-CONDITIONAL"] (.first [k!"CYCLE"] .nil)), item := (.prim .time) },
   /- 6320 -/ { field := k!"cycleCountMax", path := (.first [k!"FLEXRAY-CLUSTER-VARIANTS", k!"FLEXRAY-CLUSTER-CONDITIONAL"] (.first [k!"CYCLE-COUNT-MAX"] .nil)), item := (.prim .integer) },
   /- 6321 -/ { field := k!"detectNitError", path := (.first [k!"FLEXRAY-CLUSTER-VARIANTS", k!"FLEXRAY-CLUSTER-CONDITIONAL"] (.first [k!"DETECT-NIT-ERROR"] .nil)), item := (.prim .boolean) },
   /- 6322 -/ { field := k!"dynamicSlotIdlePhase", path := (.first [k!"FLEXRAY-CLUSTER-VARIANTS", k!"FLEXRAY-CLUSTER-CONDITIONAL"] (.first [k!"DYNAMIC-SLOT-IDLE-PHASE"] .nil)), item := (.prim .integer) },
   /- 6323 -/ { field := k!"ignoreAfterTx", path := (.first [k!"FLEXRAY-CLUSTER-VARIANTS", k!"FLEXRAY-CLUSTER-CONDITIONAL"] (.first [k!"IGNORE-AFTER-TX"] .nil)), item := (.prim .integer) },
   /- 6324 -/ { field := k!"listenNoise", path := (.first [k!"FLEXRAY-CLUSTER-VARIANTS", k!"FLEXRAY-CLUSTER-CONDITIONAL"] (.first [k!"LISTEN-NOISE"] .nil)), item := (.prim .integer) },
   /- 6325 -/ { field := k!"macroPerCycle", path := (.first [k!"FLEXRAY-CLUSTER-VARIANTS", k!"FLEXRAY-CLUSTER-CONDITIONAL"] (.first [k!"MACRO-PER-CYCLE"] .nil)), item := (.prim .integer) },
   /- 6326 -/ { field := k!"macrotickDuration", path := (.first [k!"FLEXRAY-CLUSTER-VARIANTS", k!"FLEXRAY-CLUSTER-CONDITIONAL"] (.first [k!"MACROTICK-DURATION"] .nil)), item := (.prim .time) },
   /- 6327 -/ { field := k!"maxWithoutClockCorrectionFatal", path := (.first [k!"FLEXRAY-CLUSTER-VARIANTS", k!"FLEXRAY-CLUSTER-CONDITIONAL"] (.first [k!"MAX-WITHOUT-CLOCK-CORRECTION-FATAL"] .nil)), item := (.prim .integer) },
   /- 6328 -/ { field := k!"maxWithoutClockCorrectionPassive", path := (.first [k!"FLEXRAY-CLUSTER-VARIANTS", k!"FLEXRAY-CLUSTER-CONDITIONAL"] (.first [k!"MAX-WITHOUT-CLOCK-CORRECTION-PASSIVE"] .nil)), item := (.prim .integer) },
   /- 6329 -/ { field := k!"minislotActionPointOffset", path := (.first [k!"FLEXRAY-CLUSTER-VARIANTS", k!"FLEXRAY-CLUSTER-CONDITIONAL"] (.first [k!"MINISLOT-ACTION-POINT-OFFSET"] .nil)), item := (.prim .integer) },
   /- 6330 -/ { field := k!"minislotDuration", path := (.first [k!"FLEXRAY-CLUSTER-VARIANTS", k!"FLEXRAY-CLUSTER-CONDITIONAL"] (.first [k!"MINISLOT-DURATION"] .nil)), item := (.prim .integer) },
   /- 6331 -/ { field := k!"networkIdleTime", path := (.first [k!"FLEXRAY-CLUSTER-VARIANTS", k!"FLEXRAY-CLUSTER-CONDITIONAL"] (.first [k!"NETWORK-IDLE-TIME"] .nil)), item := (.prim .integer) },
   /- 6332 -/ { field := k!"networkManagementVectorLength", path := (.first [k!"FLEXRAY-CLUSTER-VARIANTS", k!"FLEXRAY-CLUSTER-CONDITIONAL"] (.first [k!"NETWORK-MANAGEMENT-VECTOR-LENGTH"] .nil)), item := (.prim .integer) },
   /- 6333 -/ { field := k!"numberOfMinislots", path := (.first [k!"FLEXRAY-CLUSTER-VARIANTS", k!"FLEXRAY-CLUSTER-CONDITIONAL"] (.first [k!"NUMBER-OF-MINISLOTS"] .nil)), item := (.prim .integer) },
   /- 6334 -/ { field := k!"numberOfStaticSlots", path := (.first [k!"FLEXRAY-CLUSTER-VARIANTS", k!"FLEXRAY-CLUSTER-CONDITIONAL"] (.first [k!"NUMBER-OF-STATIC-SLOTS"] .nil)), item := (.prim .integer) },
   /- 6335 -/ { field := k!"offsetCorrectionStart", path := (.first [k!"FLEXRAY-CLUSTER-VARIANTS", k!"FLEXRAY-CLUSTER-CONDITIONAL"] (.first [k!"OFFSET-CORRECTION-START"] .nil)), item := (.prim .integer) },
   /- 6336 -/ { field := k!"payloadLengthStatic", path := (.first [k!"FLEXRAY-CLUSTER-VARIANTS", k!"FLEXRAY-CLUSTER-CONDITIONAL"] (.first [k!"PAYLOAD-LENGTH-STATIC"] .nil)), item := (.prim .integer) },
   /- 6337 -/ { field := k!"safetyMargin", path := (.first [k!"FLEXRAY-CLUSTER-VARIANTS", k!"FLEXRAY-CLUSTER-CONDITIONAL"] (.first [k!"SAFETY-MARGIN"] .nil)), item := (.prim .integer) },
   /- 6338 -/ { field := k!"sampleClockPeriod", path := (.first [k!"FLEXRAY-CLUSTER-VARIANTS", k!"FLEXRAY-CLUSTER-CONDITIONAL"] (.first [k!"SAMPLE-CLOCK-PERIOD"] .nil)), item := (.prim .time) },
   /- 6339 -/ { field := k!"staticSlotDuration", path := (.first [k!"FLEXRAY-CLUSTER-VARIANTS", k!"FLEXRAY-CLUSTER-CONDITIONAL"] (.first [k!"STATIC-SLOT-DURATION"] .nil)), item := (.prim .integer) },
   /- 6340 -/ { field := k!"symbolWindow", path := (.first [k!"FLEXRAY-CLUSTER-VARIANTS", k!"FLEXRAY-CLUSTER-CONDITIONAL"] (.first [k!"SYMBOL-WINDOW"] .nil)), item := (.prim .integer) },
   /- 6341 -/ { field := k!"symbolWindowActionPointOffset", path := (.first [k!"FLEXRAY-CLUSTER-VARIANTS", k!"FLEXRAY-CLUSTER-CONDITIONAL"] (.first [k!"SYMBOL-WINDOW-ACTION-POINT-OFFSET"] .nil)), item := (.prim .integer) },
   /- 6342 -/ { field := k!"syncFrameIdCountMax", path := (.first [k!"FLEXRAY-CLUSTER-VARIANTS", k!"FLEXRAY-CLUSTER-CONDITIONAL"] (.first [k!"SYNC-FRAME-ID-COUNT-MAX"] .nil)), item := (.prim .integer) },
   /- 6343 -/ { field := k!"tranceiverStandbyDelay", path := (.first [k!"FLEXRAY-CLUSTER-VARIANTS", k!"FLEXRAY-CLUSTER-CONDITIONAL"] (.first [k!"TRANCEIVER-STANDBY-DELAY"] .nil)), item := (.prim .float) },
   /- 6344 -/ { field := k!"transmissionStartSequenceDuration", path := (.first [k!"FLEXRAY-CLUSTER-VARIANTS", k!"FLEXRAY-CLUSTER-CONDITIONAL"] (.first [k!"TRANSMISSION-START-SEQUENCE-DURATION"] .nil)), item := (.prim .integer) },
   /- 6345 -/ { field := k!"wakeupRxIdle", path := (.first [k!"FLEXRAY-CLUSTER-VARIANTS", k!"FLEXRAY-CLUSTER-CONDITIONAL"] (.first [k!"WAKEUP-RX-IDLE"] .nil)), item := (.prim .integer) },
   /- 6346 -/ { field := k!"wakeupRxLow", path := (.first [k!"FLEXRAY-CLUSTER-VARIANTS", k!"FLEXRAY-CLUSTER-CONDITIONAL"] (.first [k!"WAKEUP-RX-LOW"] .nil)), item := (.prim .integer) },
   /- 6347 -/ { field := k!"wakeupRxWindow", path := (.first [k!"FLEXRAY-CLUSTER-VARIANTS", k!"FLEXRAY-CLUSTER-CONDITIONAL"] (.first [k!"WAKEUP-RX-WINDOW"] .nil)), item := (.prim .integer) },
   /- 6348 -/ { field := k!"wakeupTxActive", path := (.first [k!"FLEXRAY-CLUSTER-VARIANTS", k!"FLEXRAY-CLUSTER-CONDITIONAL"] (.first [k!"WAKEUP-TX-ACTIVE"] .nil)), item := (.prim .integer) },
   /- 6349 -/ { field := k!"wakeupTxIdle", path := (.first [k!"FLEXRAY-CLUSTER-VARIANTS", k!"FLEXRAY-CLUSTER-CONDITIONAL"] (.first [k!"WAKEUP-TX-IDLE"] .nil)), item := (.prim .integer) }]

/-- `readARPackageElements`, `parser/arxml_parser.py:9023-9318` (the `FlexrayCluster` it makes) -/
def readARPackageElements_FlexrayCluster : List RSlot :=
  [/- 9267 -/ { field := k!"short_name", path := (.first [k!"SHORT-NAME"] .nil), item := .name, req := .always }] ++
  /- 9268 -/ readFlexrayCluster

/-- `readGateway`, `parser/arxml_parser.py:8286-8293` -/
def readGateway : List RSlot :=
  /- 8288 -/ readIdentifiable ++
  [/- 8289 -/ { field := k!"ecuRef", path := (.first [k!"ECU-REF"] .nil), item := (.prim .ref) },
   /- 8291 -/ { field := k!"iPduMappings", path := (.all k!"I-PDU-MAPPINGS" (.all k!"I-PDU-MAPPING" .nil)), item := (.objs [(k!"I-PDU-MAPPING", k!"getIPduMappings_IPduMapping")]) },
   /- 8293 -/ { field := k!"signalMappings", path := (.all k!"SIGNAL-MAPPINGS" (.all k!"I-SIGNAL-MAPPING" .nil)), item := (.objs [(k!"I-SIGNAL-MAPPING", k!"getISignalMappings_ISignalMapping")]) }]

/-- `readARPackageElements`, `parser/arxml_parser.py:9023-9318` (the `Gateway` it makes) -/
def readARPackageElements_Gateway : List RSlot :=
  [/- 9165 -/ { field := k!"short_name", path := (.first [k!"SHORT-NAME"] .nil), item := .name, req := .always }] ++
  /- 9166 -/ readGateway

/-- `readNPdu`, `parser/arxml_parser.py:6747-6749`; also `readGeneralPurposeIPdu` -/
def readNPdu : List RSlot :=
  /- 6749 -/ readIPdu

/-- `readARPackageElements`, `parser/arxml_parser.py:9023-9318` (the `NPdu` it makes) -/
def readARPackageElements_NPdu : List RSlot :=
  [/- 9141 -/ { field := k!"short_name", path := (.first [k!"SHORT-NAME"] .nil), item := .name, req := .always }] ++
  /- 9142 -/ readNPdu

/-- `readGeneralPurposePdu`, `parser/arxml_parser.py:6480-6482` -/
def readGeneralPurposePdu : List RSlot :=
  /- 6482 -/ readPdu

/-- `readARPackageElements`, `parser/arxml_parser.py:9023-9318` (the `GeneralPurposePdu` it makes) -/
def readARPackageElements_GeneralPurposePdu : List RSlot :=
  [/- 9240 -/ { field := k!"short_name", path := (.first [k!"SHORT-NAME"] .nil), item := .name, req := .always }] ++
  /- 9241 -/ readGeneralPurposePdu

/-- `readHwCategoryHwAttributeDef`, `parser/arxml_parser.py:6663-6670` -/
def readHwCategoryHwAttributeDef : List RSlot :=
  [/- 6667 -/ { field := k!"hwAttributeDefs", path := (.all k!"HW-ATTRIBUTE-DEFS" (.all k!"HW-ATTRIBUTE-DEF" .nil)), item := (.objs [(k!"HW-ATTRIBUTE-DEF", k!"readHwCategoryHwAttributeDef_HwAttributeDef")]), elems := true, named := true },
   /- 6670 -/ { field := 0, path := (.all k!"HW-ATTRIBUTE-DEFS" (.all 0 .nil)), item := (.guard [k!"HW-ATTRIBUTE-DEF"] .unsupported) }]

/-- `readHwCategory`, `parser/arxml_parser.py:6672-6675` -/
def readHwCategory : List RSlot :=
  /- 6674 -/ readTrigger ++
  /- 6675 -/ readHwCategoryHwAttributeDef

/-- `readARPackageElements`, `parser/arxml_parser.py:9023-9318` (the `HwCategory` it makes) -/
def readARPackageElements_HwCategory : List RSlot :=
  [/- 9258 -/ { field := k!"short_name", path := (.first [k!"SHORT-NAME"] .nil), item := .name, req := .always }] ++
  /- 9259 -/ readHwCategory

/-- `readHwDescriptionEntityHwCategoryRefs`, `parser/arxml_parser.py:6564-6566` -/
def readHwDescriptionEntityHwCategoryRefs : List RSlot :=
  [/- 6566 -/ { field := k!"hwCategoryRefs", path := (.all k!"HW-CATEGORY-REFS" (.all k!"HW-CATEGORY-REF" .nil)), item := (.prim .ref) }]

/-- `readHwDescriptionEntityHwAttributeValues`, `parser/arxml_parser.py:6572-6576` -/
def readHwDescriptionEntityHwAttributeValues : List RSlot :=
  [/- 6576 -/ { field := k!"hwAttributeValues", path := (.all k!"HW-ATTRIBUTE-VALUES" (.all k!"HW-ATTRIBUTE-VALUE" .nil)), item := (.objs [(k!"HW-ATTRIBUTE-VALUE", k!"readHwDescriptionEntityHwAttributeValues_HwAttributeValue")]) }]

/-- `readHwDescriptionEntity`, `parser/arxml_parser.py:6578-6582` -/
def readHwDescriptionEntity : List RSlot :=
  /- 6579 -/ readReferrable ++
  [/- 6580 -/ { field := k!"hwTypeRef", path := (.first [k!"HW-TYPE-REF"] .nil), item := (.prim .ref) }] ++
  /- 6581 -/ readHwDescriptionEntityHwCategoryRefs ++
  /- 6582 -/ readHwDescriptionEntityHwAttributeValues

/-- `readHwElementHwPinGroups`, `parser/arxml_parser.py:6597-6604` -/
def readHwElementHwPinGroups : List RSlot :=
  [/- 6601 -/ { field := k!"hwPinGroups", path := (.all k!"HW-PIN-GROUPS" (.all k!"HW-PIN-GROUP" .nil)), item := (.objs [(k!"HW-PIN-GROUP", k!"readHwElementHwPinGroups_HwPinGroup")]), named := true },
   /- 6604 -/ { field := 0, path := (.all k!"HW-PIN-GROUPS" (.all 0 .nil)), item := (.guard [k!"HW-PIN-GROUP"] .unsupported) }]

/-- `readHwElementHwElementConnections`, `parser/arxml_parser.py:6631-6635` -/
def readHwElementHwElementConnections : List RSlot :=
  [/- 6635 -/ { field := k!"hwElementConnections", path := (.all k!"HW-ELEMENT-CONNECTIONS" (.all k!"HW-ELEMENT-CONNECTOR" .nil)), item := (.objs [(k!"HW-ELEMENT-CONNECTOR", k!"readHwElementHwElementConnections_HwElementConnector")]) }]

/-- `readHwElementHwNestedElementRefs`, `parser/arxml_parser.py:6637-6642` -/
def readHwElementHwNestedElementRefs : List RSlot :=
  [/- 6642 -/ { field := k!"nestedElementRefs", path := (.alt (.all k!"NESTED-ELEMENTS" (.all k!"HW-ELEMENT-REF-CONDITIONAL" (.all k!"HW-ELEMENT-REF" .nil))) (.all k!"NESTED-ELEMENTS" (.all k!"HW-ELEMENT-REF" .nil))), item := (.prim .ref) }]

/-- `readHwElement`, `parser/arxml_parser.py:6644-6649` -/
def readHwElement : List RSlot :=
  /- 6646 -/ readHwDescriptionEntity ++
  /- 6647 -/ readHwElementHwPinGroups ++
  /- 6648 -/ readHwElementHwElementConnections ++
  /- 6649 -/ readHwElementHwNestedElementRefs

/-- `readARPackageElements`, `parser/arxml_parser.py:9023-9318` (the `HwElement` it makes) -/
def readARPackageElements_HwElement : List RSlot :=
  [/- 9255 -/ { field := k!"short_name", path := (.first [k!"SHORT-NAME"] .nil), item := .name, req := .always }] ++
  /- 9256 -/ readHwElement

/-- `readHwType`, `parser/arxml_parser.py:6677-6679`; also `readBswModuleCallPoint` -/
def readHwType : List RSlot :=
  /- 6679 -/ readReferrable

/-- `readARPackageElements`, `parser/arxml_parser.py:9023-9318` (the `HwType` it makes) -/
def readARPackageElements_HwType : List RSlot :=
  [/- 9261 -/ { field := k!"short_name", path := (.first [k!"SHORT-NAME"] .nil), item := .name, req := .always }] ++
  /- 9262 -/ readHwType

/-- `readISignalProps`, `parser/arxml_parser.py:8309-8314` -/
def readISignalProps : List RSlot :=
  [/- 8314 -/ { field := k!"iSignalProps", path := (.first [k!"I-SIGNAL-PROPS"] .nil), item := (.objs [(k!"I-SIGNAL-PROPS", k!"readISignalProps_ISignalProps")]) }]

/-- `readISignalTransformationISignalProps`, `parser/arxml_parser.py:8316-8324`; also `readISignalGroupTransformationISignalProps` -/
def readISignalTransformationISignalProps : List RSlot :=
  [/- 8322 -/ { field := k!"transformationISignalProps", path := (.all k!"TRANSFORMATION-I-SIGNAL-PROPSS" (.all k!"END-TO-END-TRANSFORMATION-I-SIGNAL-PROPS" .nil)), item := (.objs [(k!"END-TO-END-TRANSFORMATION-I-SIGNAL-PROPS", k!"readISignalTransformationISignalProps_EndToEndTransformationISignalProps")]) },
   /- 8324 -/ { field := 0, path := (.all k!"TRANSFORMATION-I-SIGNAL-PROPSS" (.all 0 .nil)), item := (.guard [k!"END-TO-END-TRANSFORMATION-I-SIGNAL-PROPS"] .unsupported) }]

/-- `readISignal`, `parser/arxml_parser.py:8295-8307` -/
def readISignal : List RSlot :=
  /- 8297 -/ readIdentifiable ++
  [/- 8298 -/ { field := k!"dataTransformationRef", path := (.first [k!"DATA-TRANSFORMATIONS", k!"DATA-TRANSFORMATION-REF-CONDITIONAL", k!"DATA-TRANSFORMATION-REF"] .nil), item := (.prim .ref) },
   /- 8299 -/ { field := k!"dataTypePolicy", path := (.first [k!"DATA-TYPE-POLICY"] .nil), item := (.prim .lit) },
   /- 8300 -/ { field := k!"iSignalType", path := (.first [k!"I-SIGNAL-TYPE"] .nil), item := (.prim .lit) },
   /- 5392 -/ { field := 0, path := (.first [k!"INIT-VALUE", 0] .nil), item := (.guard [k!"APPLICATION-VALUE-SPECIFICATION", k!"APPLICATION-RULE-BASED-VALUE-SPECIFICATION", k!"COMPOSITE-RULE-BASED-VALUE-SPECIFICATION", k!"RECORD-VALUE-SPECIFICATION", k!"NUMERICAL-VALUE-SPECIFICATION", k!"ARRAY-VALUE-SPECIFICATION", k!"TEXT-VALUE-SPECIFICATION", k!"CONSTANT-REFERENCE"] .unbound) },
   /- 8301 -/ { field := k!"initValue", path := (.first [k!"INIT-VALUE", 0] .nil), item := (.objs [(k!"APPLICATION-VALUE-SPECIFICATION", k!"getApplicationValueSpecification_ApplicationValueSpecification"), (k!"APPLICATION-RULE-BASED-VALUE-SPECIFICATION", k!"getApplicationRuleBasedValueSpecification_ApplicationRuleBasedValueSpecification"), (k!"COMPOSITE-RULE-BASED-VALUE-SPECIFICATION", k!"getCompositeRuleBasedValueSpecification_CompositeRuleBasedValueSpecification"), (k!"RECORD-VALUE-SPECIFICATION", k!"getRecordValueSpecification_RecordValueSpecification"), (k!"NUMERICAL-VALUE-SPECIFICATION", k!"getNumericalValueSpecification_NumericalValueSpecification"), (k!"ARRAY-VALUE-SPECIFICATION", k!"getArrayValueSpecification_ArrayValueSpecification"), (k!"TEXT-VALUE-SPECIFICATION", k!"getTextValueSpecification_TextValueSpecification"), (k!"CONSTANT-REFERENCE", k!"getConstantReference_ConstantReference")]) },
   /- 8302 -/ { field := k!"length", path := (.first [k!"LENGTH"] .nil), item := (.prim .numerical) },
   /- 8303 -/ { field := k!"networkRepresentationProps", path := (.first [k!"NETWORK-REPRESENTATION-PROPS"] .nil), item := (.objs [(k!"NETWORK-REPRESENTATION-PROPS", k!"getSwDataDefProps_SwDataDefProps")]) },
   /- 8304 -/ { field := k!"systemSignalRef", path := (.first [k!"SYSTEM-SIGNAL-REF"] .nil), item := (.prim .ref) },
   /- 5392 -/ { field := 0, path := (.first [k!"TIMEOUT-SUBSTITUTION-VALUE", 0] .nil), item := (.guard [k!"APPLICATION-VALUE-SPECIFICATION", k!"APPLICATION-RULE-BASED-VALUE-SPECIFICATION", k!"COMPOSITE-RULE-BASED-VALUE-SPECIFICATION", k!"RECORD-VALUE-SPECIFICATION", k!"NUMERICAL-VALUE-SPECIFICATION", k!"ARRAY-VALUE-SPECIFICATION", k!"TEXT-VALUE-SPECIFICATION", k!"CONSTANT-REFERENCE"] .unbound) },
   /- 8305 -/ { field := k!"timeoutSubstitutionValue", path := (.first [k!"TIMEOUT-SUBSTITUTION-VALUE", 0] .nil), item := (.objs [(k!"APPLICATION-VALUE-SPECIFICATION", k!"getApplicationValueSpecification_ApplicationValueSpecification"), (k!"APPLICATION-RULE-BASED-VALUE-SPECIFICATION", k!"getApplicationRuleBasedValueSpecification_ApplicationRuleBasedValueSpecification"), (k!"COMPOSITE-RULE-BASED-VALUE-SPECIFICATION", k!"getCompositeRuleBasedValueSpecification_CompositeRuleBasedValueSpecification"), (k!"RECORD-VALUE-SPECIFICATION", k!"getRecordValueSpecification_RecordValueSpecification"), (k!"NUMERICAL-VALUE-SPECIFICATION", k!"getNumericalValueSpecification_NumericalValueSpecification"), (k!"ARRAY-VALUE-SPECIFICATION", k!"getArrayValueSpecification_ArrayValueSpecification"), (k!"TEXT-VALUE-SPECIFICATION", k!"getTextValueSpecification_TextValueSpecification"), (k!"CONSTANT-REFERENCE", k!"getConstantReference_ConstantReference")]) }] ++
  /- 8306 -/ readISignalProps ++
  /- 8307 -/ readISignalTransformationISignalProps

/-- `readARPackageElements`, `parser/arxml_parser.py:9023-9318` (the `ISignal` it makes) -/
def readARPackageElements_ISignal : List RSlot :=
  [/- 9177 -/ { field := k!"short_name", path := (.first [k!"SHORT-NAME"] .nil), item := .name, req := .always }] ++
  /- 9178 -/ readISignal

/-- `readISignalGroupComBasedSignalGroupTransformation`, `parser/arxml_parser.py:8467-8469` -/
def readISignalGroupComBasedSignalGroupTransformation : List RSlot :=
  [/- 8469 -/ { field := k!"comBasedSignalGroupTransformationRef", path := (.first [k!"COM-BASED-SIGNAL-GROUP-TRANSFORMATIONS", k!"DATA-TRANSFORMATION-REF-CONDITIONAL", k!"DATA-TRANSFORMATION-REF"] .nil), item := (.prim .ref) }]

/-- `readISignalGroupISignalRef`, `parser/arxml_parser.py:8463-8465` -/
def readISignalGroupISignalRef : List RSlot :=
  [/- 8465 -/ { field := k!"iSignalRefs", path := (.all k!"I-SIGNAL-REFS" (.all k!"I-SIGNAL-REF" .nil)), item := (.prim .ref) }]

/-- `readISignalGroup`, `parser/arxml_parser.py:8540-8546` -/
def readISignalGroup : List RSlot :=
  /- 8542 -/ readIdentifiable ++
  /- 8543 -/ readISignalGroupComBasedSignalGroupTransformation ++
  /- 8544 -/ readISignalGroupISignalRef ++
  [/- 8545 -/ { field := k!"systemSignalGroupRef", path := (.first [k!"SYSTEM-SIGNAL-GROUP-REF"] .nil), item := (.prim .ref) }] ++
  /- 8546 -/ readISignalTransformationISignalProps

/-- `readARPackageElements`, `parser/arxml_parser.py:9023-9318` (the `ISignalGroup` it makes) -/
def readARPackageElements_ISignalGroup : List RSlot :=
  [/- 9180 -/ { field := k!"short_name", path := (.first [k!"SHORT-NAME"] .nil), item := .name, req := .always }] ++
  /- 9181 -/ readISignalGroup

/-- `readISignalToPduMappings`, `parser/arxml_parser.py:8598-8608` -/
def readISignalToPduMappings : List RSlot :=
  [/- 8601 -/ { field := k!"iSignalToPduMappings", path := (.all k!"I-SIGNAL-TO-PDU-MAPPINGS" (.all k!"I-SIGNAL-TO-I-PDU-MAPPING" .nil)), item := (.objs [(k!"I-SIGNAL-TO-I-PDU-MAPPING", k!"readISignalToPduMappings_ISignalToIPduMapping")]), elems := true, named := true }]

/-- `readISignalIPdu`, `parser/arxml_parser.py:8687-8693` -/
def readISignalIPdu : List RSlot :=
  /- 8689 -/ readIdentifiable ++
  [/- 8690 -/ { field := k!"length", path := (.first [k!"LENGTH"] .nil), item := (.prim .numerical) },
   /- 8691 -/ { field := k!"iPduTimingSpecification", path := (.first [k!"I-PDU-TIMING-SPECIFICATIONS", k!"I-PDU-TIMING"] .nil), item := (.objs [(k!"I-PDU-TIMING", k!"getISignalIPduIPduTimingSpecification_IPduTiming")]) }] ++
  /- 8692 -/ readISignalToPduMappings ++
  [/- 8693 -/ { field := k!"unusedBitPattern", path := (.first [k!"UNUSED-BIT-PATTERN"] .nil), item := (.prim .integer) }]

/-- `readARPackageElements`, `parser/arxml_parser.py:9023-9318` (the `ISignalIPdu` it makes) -/
def readARPackageElements_ISignalIPdu : List RSlot :=
  [/- 9183 -/ { field := k!"short_name", path := (.first [k!"SHORT-NAME"] .nil), item := .name, req := .always }] ++
  /- 9184 -/ readISignalIPdu

/-- `readISignalIPduGroup`, `parser/arxml_parser.py:8701-8709` -/
def readISignalIPduGroup : List RSlot :=
  /- 8703 -/ readIdentifiable ++
  [/- 8704 -/ { field := k!"communicationDirection", path := (.first [k!"COMMUNICATION-DIRECTION"] .nil), item := (.prim .lit) },
   /- 8705 -/ { field := k!"communicationMode", path := (.first [k!"COMMUNICATION-MODE"] .nil), item := (.prim .lit) },
   /- 8707 -/ { field := k!"containedISignalIPduGroupRefs", path := (.all k!"CONTAINED-I-SIGNAL-I-PDU-GROUP-REFS" (.all k!"CONTAINED-I-SIGNAL-I-PDU-GROUP-REF" .nil)), item := (.prim .ref) },
   /- 8709 -/ { field := k!"iSignalIPduRefs", path := (.all k!"I-SIGNAL-I-PDUS" (.all k!"I-SIGNAL-I-PDU-REF-CONDITIONAL" (.first [k!"I-SIGNAL-I-PDU-REF"] .nil))), item := (.prim .ref) }]

/-- `readARPackageElements`, `parser/arxml_parser.py:9023-9318` (the `ISignalIPduGroup` it makes) -/
def readARPackageElements_ISignalIPduGroup : List RSlot :=
  [/- 9168 -/ { field := k!"short_name", path := (.first [k!"SHORT-NAME"] .nil), item := .name, req := .always }] ++
  /- 9169 -/ readISignalIPduGroup

/-- `readImplementationDataTypeSubElements`, `parser/arxml_parser.py:4106-4113` -/
def readImplementationDataTypeSubElements : List RSlot :=
  [/- 4110 -/ { field := k!"subElements", path := (.all k!"SUB-ELEMENTS" (.all k!"IMPLEMENTATION-DATA-TYPE-ELEMENT" .nil)), item := (.objs [(k!"IMPLEMENTATION-DATA-TYPE-ELEMENT", k!"readImplementationDataTypeSubElements_ImplementationDataTypeElement")]), elems := true, named := true },
   /- 4113 -/ { field := 0, path := (.all k!"SUB-ELEMENTS" (.all 0 .nil)), item := (.guard [k!"IMPLEMENTATION-DATA-TYPE-ELEMENT"] .unsupported) }]

/-- `readImplementationDataTypeSymbolProps`, `parser/arxml_parser.py:5570-5574` -/
def readImplementationDataTypeSymbolProps : List RSlot :=
  [/- 5573 -/ { field := k!"symbolProps", path := (.first [k!"SYMBOL-PROPS"] .nil), item := (.objs [(k!"SYMBOL-PROPS", k!"readAtomicSwComponentTypeSymbolProps_SymbolProps")]), elems := true, named := true, fresh := true }]

/-- `readImplementationDataType`, `parser/arxml_parser.py:4115-4122` -/
def readImplementationDataType : List RSlot :=
  /- 4117 -/ readSwSystemconst ++
  [/- 4118 -/ { field := k!"dynamicArraySizeProfile", path := (.first [k!"DYNAMIC-ARRAY-SIZE-PROFILE"] .nil), item := (.prim .lit) },
   /- 4119 -/ { field := k!"isStructWithOptionalElement", path := (.first [k!"IS-STRUCT-WITH-OPTIONAL-ELEMENT"] .nil), item := (.prim .boolean) }] ++
  /- 4120 -/ readImplementationDataTypeSubElements ++
  /- 4121 -/ readImplementationDataTypeSymbolProps ++
  [/- 4122 -/ { field := k!"typeEmitter", path := (.first [k!"TYPE-EMITTER"] .nil), item := (.prim .lit) }]

/-- `readARPackageElements`, `parser/arxml_parser.py:9023-9318` (the `ImplementationDataType` it makes) -/
def readARPackageElements_ImplementationDataType : List RSlot :=
  [/- 9084 -/ { field := k!"short_name", path := (.first [k!"SHORT-NAME"] .nil), item := .name, req := .always }] ++
  /- 9085 -/ readImplementationDataType

/-- `readKeywordSetKeywords`, `parser/arxml_parser.py:7315-7322` -/
def readKeywordSetKeywords : List RSlot :=
  [/- 7319 -/ { field := k!"keywords", path := (.all k!"KEYWORDS" (.all k!"KEYWORD" .nil)), item := (.objs [(k!"KEYWORD", k!"readKeywordSetKeywords_Keyword")]), elems := true, named := true },
   /- 7322 -/ { field := 0, path := (.all k!"KEYWORDS" (.all 0 .nil)), item := (.guard [k!"KEYWORD"] .unsupported) }]

/-- `readKeywordSet`, `parser/arxml_parser.py:7324-7327` -/
def readKeywordSet : List RSlot :=
  /- 7326 -/ readTrigger ++
  /- 7327 -/ readKeywordSetKeywords

/-- `readARPackageElements`, `parser/arxml_parser.py:9023-9318` (the `KeywordSet` it makes) -/
def readARPackageElements_KeywordSet : List RSlot :=
  [/- 9279 -/ { field := k!"short_name", path := (.first [k!"SHORT-NAME"] .nil), item := .name, req := .always }] ++
  /- 9280 -/ readKeywordSet

/-- `readLifeCycleInfoSetLifeCycleInfos`, `parser/arxml_parser.py:8888-8896` -/
def readLifeCycleInfoSetLifeCycleInfos : List RSlot :=
  [/- 8894 -/ { field := k!"lifeCycleInfos", path := (.all k!"LIFE-CYCLE-INFOS" (.all k!"LIFE-CYCLE-INFO" .nil)), item := (.objs [(k!"LIFE-CYCLE-INFO", k!"readLifeCycleInfoSetLifeCycleInfos_LifeCycleInfo")]) },
   /- 8896 -/ { field := 0, path := (.all k!"LIFE-CYCLE-INFOS" (.all 0 .nil)), item := (.guard [k!"LIFE-CYCLE-INFO"] .unsupported) }]

/-- `readLifeCycleInfoSet`, `parser/arxml_parser.py:8898-8903` -/
def readLifeCycleInfoSet : List RSlot :=
  /- 8900 -/ readIdentifiable ++
  [/- 8901 -/ { field := k!"defaultLcStateRef", path := (.first [k!"DEFAULT-LC-STATE-REF"] .nil), item := (.prim .ref) }] ++
  /- 8902 -/ readLifeCycleInfoSetLifeCycleInfos ++
  [/- 8903 -/ { field := k!"usedLifeCycleStateDefinitionGroupRef", path := (.first [k!"USED-LIFE-CYCLE-STATE-DEFINITION-GROUP-REF"] .nil), item := (.prim .ref) }]

/-- `readARPackageElements`, `parser/arxml_parser.py:9023-9318` (the `LifeCycleInfoSet` it makes) -/
def readARPackageElements_LifeCycleInfoSet : List RSlot :=
  [/- 9210 -/ { field := k!"short_name", path := (.first [k!"SHORT-NAME"] .nil), item := .name, req := .always }] ++
  /- 9211 -/ readLifeCycleInfoSet

/-- `readLinCluster`, `parser/arxml_parser.py:6295-6300` -/
def readLinCluster : List RSlot :=
  /- 6297 -/ readIdentifiable ++
  /- 6300 -/ via (.first [k!"LIN-CLUSTER-VARIANTS", k!"LIN-CLUSTER-CONDITIONAL"] .nil) readCommunicationCluster

/-- `readARPackageElements`, `parser/arxml_parser.py:9023-9318` (the `LinCluster` it makes) -/
def readARPackageElements_LinCluster : List RSlot :=
  [/- 9132 -/ { field := k!"short_name", path := (.first [k!"SHORT-NAME"] .nil), item := .name, req := .always }] ++
  /- 9133 -/ readLinCluster

/-- `readLinTpConfigTpAddresses`, `parser/arxml_parser.py:7072-7079` -/
def readLinTpConfigTpAddresses : List RSlot :=
  [/- 7076 -/ { field := k!"tpAddresses", path := (.all k!"TP-ADDRESSS" (.all k!"TP-ADDRESS" .nil)), item := (.objs [(k!"TP-ADDRESS", k!"readLinTpConfigTpAddresses_TpAddress")]), elems := true, named := true },
   /- 7079 -/ { field := 0, path := (.all k!"TP-ADDRESSS" (.all 0 .nil)), item := (.guard [k!"TP-ADDRESS"] .unsupported) }]

/-- `readLinTpConfigTpConnections`, `parser/arxml_parser.py:7092-7100` -/
def readLinTpConfigTpConnections : List RSlot :=
  [/- 7098 -/ { field := k!"tpConnections", path := (.all k!"TP-CONNECTIONS" (.all k!"LIN-TP-CONNECTION" .nil)), item := (.objs [(k!"LIN-TP-CONNECTION", k!"readLinTpConfigTpConnections_LinTpConnection")]) },
   /- 7100 -/ { field := 0, path := (.all k!"TP-CONNECTIONS" (.all 0 .nil)), item := (.guard [k!"LIN-TP-CONNECTION"] .unsupported) }]

/-- `readLinTpConfigTpNodes`, `parser/arxml_parser.py:7110-7117` -/
def readLinTpConfigTpNodes : List RSlot :=
  [/- 7114 -/ { field := k!"tpNodes", path := (.all k!"TP-NODES" (.all k!"LIN-TP-NODE" .nil)), item := (.objs [(k!"LIN-TP-NODE", k!"readLinTpConfigTpNodes_LinTpNode")]), elems := true, named := true },
   /- 7117 -/ { field := 0, path := (.all k!"TP-NODES" (.all 0 .nil)), item := (.guard [k!"LIN-TP-NODE"] .unsupported) }]

/-- `readLinTpConfig`, `parser/arxml_parser.py:7119-7124` -/
def readLinTpConfig : List RSlot :=
  /- 7121 -/ readTpConfig ++
  /- 7122 -/ readLinTpConfigTpAddresses ++
  /- 7123 -/ readLinTpConfigTpConnections ++
  /- 7124 -/ readLinTpConfigTpNodes

/-- `readARPackageElements`, `parser/arxml_parser.py:9023-9318` (the `LinTpConfig` it makes) -/
def readARPackageElements_LinTpConfig : List RSlot :=
  [/- 9156 -/ { field := k!"short_name", path := (.first [k!"SHORT-NAME"] .nil), item := .name, req := .always }] ++
  /- 9157 -/ readLinTpConfig

/-- `readMcFunction`, `parser/arxml_parser.py:9320-9348` -/
def readMcFunction : List RSlot :=
  /- 9321 -/ readIdentifiable ++
  [/- 9326 -/ { field := k!"defCalprmSet", path := (.first [k!"DEF-CALPRM-SET"] .nil), item := (.objs [(k!"DEF-CALPRM-SET", k!"readMcFunction_McFunctionDataRefSet")]) },
   /- 9331 -/ { field := k!"refCalprmSet", path := (.first [k!"REF-CALPRM-SET"] .nil), item := (.objs [(k!"REF-CALPRM-SET", k!"readMcFunction_McFunctionDataRefSet")]) },
   /- 9336 -/ { field := k!"inMeasurementSet", path := (.first [k!"IN-MEASUREMENT-SET"] .nil), item := (.objs [(k!"IN-MEASUREMENT-SET", k!"readMcFunction_McFunctionDataRefSet")]) },
   /- 9341 -/ { field := k!"locMeasurementSet", path := (.first [k!"LOC-MEASUREMENT-SET"] .nil), item := (.objs [(k!"LOC-MEASUREMENT-SET", k!"readMcFunction_McFunctionDataRefSet")]) },
   /- 9346 -/ { field := k!"outMeasurementSet", path := (.first [k!"OUT-MEASUREMENT-SET"] .nil), item := (.objs [(k!"OUT-MEASUREMENT-SET", k!"readMcFunction_McFunctionDataRefSet")]) },
   /- 9348 -/ { field := k!"subFunctionRefs", path := (.all k!"SUB-FUNCTION-REFS" (.all k!"SUB-FUNCTION-REF" .nil)), item := (.prim .ref) }]

end Verif.Gen.R
