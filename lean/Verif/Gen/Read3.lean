import Verif.Gen.Read2
-- generated by tools/gen_codec.py; do not edit
namespace Verif.Gen.R
open Verif Verif.Model

/-- `readARPackageElements`, `parser/arxml_parser.py:9023-9318` (the `McFunction` it makes) -/
def readARPackageElements_McFunction : List RSlot :=
  [/- 9312 -/ { field := k!"short_name", path := (.first [k!"SHORT-NAME"] .nil), item := .name, req := .always }] ++
  /- 9313 -/ readMcFunction

/-- `readMcGroup`, `parser/arxml_parser.py:9359-9374` -/
def readMcGroup : List RSlot :=
  /- 9360 -/ readIdentifiable ++
  [/- 9362 -/ { field := k!"subGroupRefs", path := (.all k!"SUB-GROUP-REFS" (.all k!"SUB-GROUP-REF" .nil)), item := (.prim .ref) },
   /- 9367 -/ { field := k!"refCalprmSet", path := (.first [k!"REF-CALPRM-SET"] .nil), item := (.objs [(k!"REF-CALPRM-SET", k!"readMcGroup_McGroupDataRefSet")]) },
   /- 9372 -/ { field := k!"refMeasurementSet", path := (.first [k!"REF-MEASUREMENT-SET"] .nil), item := (.objs [(k!"REF-MEASUREMENT-SET", k!"readMcGroup_McGroupDataRefSet")]) },
   /- 9374 -/ { field := k!"mcFunctionRefs", path := (.all k!"MC-FUNCTION-REFS" (.all k!"MC-FUNCTION-REF" .nil)), item := (.prim .ref) }]

/-- `readARPackageElements`, `parser/arxml_parser.py:9023-9318` (the `McGroup` it makes) -/
def readARPackageElements_McGroup : List RSlot :=
  [/- 9315 -/ { field := k!"short_name", path := (.first [k!"SHORT-NAME"] .nil), item := .name, req := .always }] ++
  /- 9316 -/ readMcGroup

/-- `readModeDeclarationGroupModeDeclaration`, `parser/arxml_parser.py:5666-5671` -/
def readModeDeclarationGroupModeDeclaration : List RSlot :=
  [/- 5669 -/ { field := k!"elements", path := (.all k!"MODE-DECLARATIONS" (.all k!"MODE-DECLARATION" .nil)), item := (.objs [(k!"MODE-DECLARATION", k!"readModeDeclarationGroupModeDeclaration_ModeDeclaration")]), elems := true, named := true }]

/-- `readModeDeclarationGroupModeTransition`, `parser/arxml_parser.py:5682-5688` -/
def readModeDeclarationGroupModeTransition : List RSlot :=
  [/- 5685 -/ { field := k!"modeTransitions", path := (.all k!"MODE-TRANSITIONS" (.all k!"MODE-TRANSITION" .nil)), item := (.objs [(k!"MODE-TRANSITION", k!"readModeDeclarationGroupModeTransition_ModeTransition")]), elems := true, named := true }]

/-- `readModeDeclarationGroup`, `parser/arxml_parser.py:5690-5702` -/
def readModeDeclarationGroup : List RSlot :=
  /- 5692 -/ readIdentifiable ++
  /- 5693 -/ readModeDeclarationGroupModeDeclaration ++
  [/- 5694 -/ { field := k!"initialModeRef", path := (.first [k!"INITIAL-MODE-REF"] .nil), item := (.prim .ref) },
   /- 5697 -/ { field := k!"modeManagerErrorBehavior", path := (.first [k!"MODE-MANAGER-ERROR-BEHAVIOR"] .nil), item := (.objs [(k!"MODE-MANAGER-ERROR-BEHAVIOR", k!"readModeErrorBehavior_ModeErrorBehavior")]) }] ++
  /- 5698 -/ readModeDeclarationGroupModeTransition ++
  [/- 5701 -/ { field := k!"modeUserErrorBehavior", path := (.first [k!"MODE-USER-ERROR-BEHAVIOR"] .nil), item := (.objs [(k!"MODE-USER-ERROR-BEHAVIOR", k!"readModeErrorBehavior_ModeErrorBehavior")]) },
   /- 5702 -/ { field := k!"onTransitionValue", path := (.first [k!"ON-TRANSITION-VALUE"] .nil), item := (.prim .positive) }]

/-- `readARPackageElements`, `parser/arxml_parser.py:9023-9318` (the `ModeDeclarationGroup` it makes) -/
def readARPackageElements_ModeDeclarationGroup : List RSlot :=
  [/- 9123 -/ { field := k!"short_name", path := (.first [k!"SHORT-NAME"] .nil), item := .name, req := .always }] ++
  /- 9124 -/ readModeDeclarationGroup

/-- `readModeDeclarationMappingSetModeDeclarationMappings`, `parser/arxml_parser.py:7344-7351` -/
def readModeDeclarationMappingSetModeDeclarationMappings : List RSlot :=
  [/- 7348 -/ { field := k!"modeDeclarationMappings", path := (.all k!"MODE-DECLARATION-MAPPINGS" (.all k!"MODE-DECLARATION-MAPPING" .nil)), item := (.objs [(k!"MODE-DECLARATION-MAPPING", k!"readModeDeclarationMappingSetModeDeclarationMappings_ModeDeclarationMapping")]), elems := true, named := true },
   /- 7351 -/ { field := 0, path := (.all k!"MODE-DECLARATION-MAPPINGS" (.all 0 .nil)), item := (.guard [k!"MODE-DECLARATION-MAPPING"] .unsupported) }]

/-- `readModeDeclarationMappingSet`, `parser/arxml_parser.py:7353-7356` -/
def readModeDeclarationMappingSet : List RSlot :=
  /- 7355 -/ readTrigger ++
  /- 7356 -/ readModeDeclarationMappingSetModeDeclarationMappings

/-- `readARPackageElements`, `parser/arxml_parser.py:9023-9318` (the `ModeDeclarationMappingSet` it makes) -/
def readARPackageElements_ModeDeclarationMappingSet : List RSlot :=
  [/- 9285 -/ { field := k!"short_name", path := (.first [k!"SHORT-NAME"] .nil), item := .name, req := .always }] ++
  /- 9286 -/ readModeDeclarationMappingSet

/-- `readModeSwitchInterfaceModeGroup`, `parser/arxml_parser.py:5704-5709` -/
def readModeSwitchInterfaceModeGroup : List RSlot :=
  [/- 5708 -/ { field := k!"modeGroup", path := (.first [k!"MODE-GROUP"] .nil), item := (.objs [(k!"MODE-GROUP", k!"readModeSwitchInterfaceModeGroup_ModeDeclarationGroupPrototype")]), elems := true, named := true }]

/-- `readModeSwitchInterface`, `parser/arxml_parser.py:5711-5714` -/
def readModeSwitchInterface : List RSlot :=
  /- 5713 -/ readPortInterface ++
  /- 5714 -/ readModeSwitchInterfaceModeGroup

/-- `readARPackageElements`, `parser/arxml_parser.py:9023-9318` (the `ModeSwitchInterface` it makes) -/
def readARPackageElements_ModeSwitchInterface : List RSlot :=
  [/- 9126 -/ { field := k!"short_name", path := (.first [k!"SHORT-NAME"] .nil), item := .name, req := .always }] ++
  /- 9127 -/ readModeSwitchInterface

/-- `readMultiplexedIPduDynamicParts`, `parser/arxml_parser.py:6435-6443` -/
def readMultiplexedIPduDynamicParts : List RSlot :=
  [/- 6441 -/ { field := k!"dynamicPart", path := (.all k!"DYNAMIC-PARTS" (.all k!"DYNAMIC-PART" .nil)), item := (.objs [(k!"DYNAMIC-PART", k!"readMultiplexedIPduDynamicParts_DynamicPart")]), last := true },
   /- 6443 -/ { field := 0, path := (.all k!"DYNAMIC-PARTS" (.all 0 .nil)), item := (.guard [k!"DYNAMIC-PART"] .unsupported) }]

/-- `readMultiplexedIPduStaticParts`, `parser/arxml_parser.py:6449-6457` -/
def readMultiplexedIPduStaticParts : List RSlot :=
  [/- 6455 -/ { field := k!"staticPart", path := (.all k!"STATIC-PARTS" (.all k!"STATIC-PART" .nil)), item := (.objs [(k!"STATIC-PART", k!"readMultiplexedIPduStaticParts_StaticPart")]), last := true },
   /- 6457 -/ { field := 0, path := (.all k!"STATIC-PARTS" (.all 0 .nil)), item := (.guard [k!"STATIC-PART"] .unsupported) }]

/-- `readMultiplexedIPdu`, `parser/arxml_parser.py:6459-6468` -/
def readMultiplexedIPdu : List RSlot :=
  /- 6461 -/ readIPdu ++
  /- 6462 -/ readMultiplexedIPduDynamicParts ++
  [/- 6463 -/ { field := k!"selectorFieldByteOrder", path := (.first [k!"SELECTOR-FIELD-BYTE-ORDER"] .nil), item := (.prim .lit) },
   /- 6464 -/ { field := k!"selectorFieldLength", path := (.first [k!"SELECTOR-FIELD-LENGTH"] .nil), item := (.prim .integer) },
   /- 6465 -/ { field := k!"selectorFieldStartPosition", path := (.first [k!"SELECTOR-FIELD-START-POSITION"] .nil), item := (.prim .integer) }] ++
  /- 6466 -/ readMultiplexedIPduStaticParts ++
  [/- 6467 -/ { field := k!"triggerMode", path := (.first [k!"TRIGGER-MODE"] .nil), item := (.prim .lit) },
   /- 6468 -/ { field := k!"unusedBitPattern", path := (.first [k!"UNUSED-BIT-PATTERN"] .nil), item := (.prim .integer) }]

/-- `readARPackageElements`, `parser/arxml_parser.py:9023-9318` (the `MultiplexedIPdu` it makes) -/
def readARPackageElements_MultiplexedIPdu : List RSlot :=
  [/- 9231 -/ { field := k!"short_name", path := (.first [k!"SHORT-NAME"] .nil), item := .name, req := .always }] ++
  /- 9232 -/ readMultiplexedIPdu

/-- `readNmConfigNmClusters`, `parser/arxml_parser.py:6900-6910` -/
def readNmConfigNmClusters : List RSlot :=
  [/- 6904 -/ { field := k!"elements", path := (.all k!"NM-CLUSTERS" (.all 0 .nil)), item := (.objs [(k!"CAN-NM-CLUSTER", k!"readNmConfigNmClusters_CanNmCluster"), (k!"UDP-NM-CLUSTER", k!"readNmConfigNmClusters_UdpNmCluster")]), elems := true, named := true, fresh := true },
   /- 6910 -/ { field := 0, path := (.all k!"NM-CLUSTERS" (.all 0 .nil)), item := (.guard [k!"CAN-NM-CLUSTER", k!"UDP-NM-CLUSTER"] .invalid) }]

/-- `readNmConfigNmClusterCouplings`, `parser/arxml_parser.py:6847-6855` -/
def readNmConfigNmClusterCouplings : List RSlot :=
  [/- 6851 -/ { field := k!"nmClusterCouplings", path := (.all k!"NM-CLUSTER-COUPLINGS" (.all 0 .nil)), item := (.objs [(k!"CAN-NM-CLUSTER-COUPLING", k!"getCanNmClusterCoupling_CanNmClusterCoupling"), (k!"UDP-NM-CLUSTER-COUPLING", k!"getUdpNmClusterCoupling_UdpNmClusterCoupling")]) },
   /- 6855 -/ { field := 0, path := (.all k!"NM-CLUSTER-COUPLINGS" (.all 0 .nil)), item := (.guard [k!"CAN-NM-CLUSTER-COUPLING", k!"UDP-NM-CLUSTER-COUPLING"] .unsupported) }]

/-- `readNmConfigNmIfEcus`, `parser/arxml_parser.py:6939-6946` -/
def readNmConfigNmIfEcus : List RSlot :=
  [/- 6943 -/ { field := k!"nmIfEcus", path := (.all k!"NM-IF-ECUS" (.all k!"NM-ECU" .nil)), item := (.objs [(k!"NM-ECU", k!"readNmConfigNmIfEcus_NmEcu")]), elems := true, named := true, fresh := true },
   /- 6946 -/ { field := 0, path := (.all k!"NM-IF-ECUS" (.all 0 .nil)), item := (.guard [k!"NM-ECU"] .unsupported) }]

/-- `readNmConfig`, `parser/arxml_parser.py:6948-6953` -/
def readNmConfig : List RSlot :=
  /- 6950 -/ readIdentifiable ++
  /- 6951 -/ readNmConfigNmClusters ++
  /- 6952 -/ readNmConfigNmClusterCouplings ++
  /- 6953 -/ readNmConfigNmIfEcus

/-- `readARPackageElements`, `parser/arxml_parser.py:9023-9318` (the `NmConfig` it makes) -/
def readARPackageElements_NmConfig : List RSlot :=
  [/- 9150 -/ { field := k!"short_name", path := (.first [k!"SHORT-NAME"] .nil), item := .name, req := .always }] ++
  /- 9151 -/ readNmConfig

/-- `readNmPduISignalToIPduMappings`, `parser/arxml_parser.py:6714-6721` -/
def readNmPduISignalToIPduMappings : List RSlot :=
  [/- 6718 -/ { field := k!"iSignalToIPduMappings", path := (.all k!"I-SIGNAL-TO-I-PDU-MAPPINGS" (.all k!"I-SIGNAL-TO-I-PDU-MAPPING" .nil)), item := (.objs [(k!"I-SIGNAL-TO-I-PDU-MAPPING", k!"readNmPduISignalToIPduMappings_ISignalToIPduMapping")]), elems := true, named := true },
   /- 6721 -/ { field := 0, path := (.all k!"I-SIGNAL-TO-I-PDU-MAPPINGS" (.all 0 .nil)), item := (.guard [k!"I-SIGNAL-TO-I-PDU-MAPPING"] .unsupported) }]

/-- `readNmPdu`, `parser/arxml_parser.py:6723-6727` -/
def readNmPdu : List RSlot :=
  /- 6725 -/ readPdu ++
  /- 6726 -/ readNmPduISignalToIPduMappings ++
  [/- 6727 -/ { field := k!"unusedBitPattern", path := (.first [k!"UNUSED-BIT-PATTERN"] .nil), item := (.prim .integer) }]

/-- `readARPackageElements`, `parser/arxml_parser.py:9023-9318` (the `NmPdu` it makes) -/
def readARPackageElements_NmPdu : List RSlot :=
  [/- 9138 -/ { field := k!"short_name", path := (.first [k!"SHORT-NAME"] .nil), item := .name, req := .always }] ++
  /- 9139 -/ readNmPdu

/-- `readNvBlockSwComponentType`, `parser/arxml_parser.py:4799-4807` -/
def readNvBlockSwComponentType : List RSlot :=
  /- 4801 -/ readAtomicSwComponentType ++
  [/- 4803 -/ { field := k!"bulkNvDataDescriptors", path := (.all k!"BULK-NV-DATA-DESCRIPTORS" (.all k!"BULK-NV-DATA-DESCRIPTOR" .nil)), item := (.objs [(k!"BULK-NV-DATA-DESCRIPTOR", k!"readNvBlockSwComponentType_BulkNvDataDescriptor")]), elems := true, named := true },
   /- 4806 -/ { field := k!"nvBlockDescriptors", path := (.all k!"NV-BLOCK-DESCRIPTORS" (.all k!"NV-BLOCK-DESCRIPTOR" .nil)), item := (.objs [(k!"NV-BLOCK-DESCRIPTOR", k!"readNvBlockSwComponentType_NvBlockDescriptor")]), elems := true, named := true }]

/-- `readARPackageElements`, `parser/arxml_parser.py:9023-9318` (the `NvBlockSwComponentType` it makes) -/
def readARPackageElements_NvBlockSwComponentType : List RSlot :=
  [/- 9114 -/ { field := k!"short_name", path := (.first [k!"SHORT-NAME"] .nil), item := .name, req := .always }] ++
  /- 9115 -/ readNvBlockSwComponentType

/-- `readDataInterface`, `parser/arxml_parser.py:5091-5092` -/
def readDataInterface : List RSlot :=
  /- 5092 -/ readPortInterface

/-- `readNvDataInterfaceNvDatas`, `parser/arxml_parser.py:5099-5106` -/
def readNvDataInterfaceNvDatas : List RSlot :=
  [/- 5103 -/ { field := k!"elements", path := (.all k!"NV-DATAS" (.all k!"VARIABLE-DATA-PROTOTYPE" .nil)), item := (.objs [(k!"VARIABLE-DATA-PROTOTYPE", k!"readNvBlockDescriptor_VariableDataPrototype")]), elems := true, named := true },
   /- 5106 -/ { field := 0, path := (.all k!"NV-DATAS" (.all 0 .nil)), item := (.guard [k!"VARIABLE-DATA-PROTOTYPE"] .unsupported) }]

/-- `readNvDataInterface`, `parser/arxml_parser.py:5108-5111` -/
def readNvDataInterface : List RSlot :=
  /- 5110 -/ readDataInterface ++
  /- 5111 -/ readNvDataInterfaceNvDatas

/-- `readARPackageElements`, `parser/arxml_parser.py:9023-9318` (the `NvDataInterface` it makes) -/
def readARPackageElements_NvDataInterface : List RSlot :=
  [/- 9309 -/ { field := k!"short_name", path := (.first [k!"SHORT-NAME"] .nil), item := .name, req := .always }] ++
  /- 9310 -/ readNvDataInterface

/-- `readParameterInterfaceParameters`, `parser/arxml_parser.py:5082-5089` -/
def readParameterInterfaceParameters : List RSlot :=
  [/- 5086 -/ { field := k!"parameters", path := (.all k!"PARAMETERS" (.all k!"PARAMETER-DATA-PROTOTYPE" .nil)), item := (.objs [(k!"PARAMETER-DATA-PROTOTYPE", k!"readNvBlockDescriptor_ParameterDataPrototype")]), elems := true, named := true, fresh := true },
   /- 5089 -/ { field := 0, path := (.all k!"PARAMETERS" (.all 0 .nil)), item := (.guard [k!"PARAMETER-DATA-PROTOTYPE"] .unsupported) }]

/-- `readParameterInterface`, `parser/arxml_parser.py:5094-5097` -/
def readParameterInterface : List RSlot :=
  /- 5096 -/ readDataInterface ++
  /- 5097 -/ readParameterInterfaceParameters

/-- `readARPackageElements`, `parser/arxml_parser.py:9023-9318` (the `ParameterInterface` it makes) -/
def readARPackageElements_ParameterInterface : List RSlot :=
  [/- 9204 -/ { field := k!"short_name", path := (.first [k!"SHORT-NAME"] .nil), item := .name, req := .always }] ++
  /- 9205 -/ readParameterInterface

/-- `readPhysicalDimension`, `parser/arxml_parser.py:8452-8461` -/
def readPhysicalDimension : List RSlot :=
  /- 8454 -/ readIdentifiable ++
  [/- 8455 -/ { field := k!"lengthExp", path := (.first [k!"LENGTH-EXP"] .nil), item := (.prim .numerical) },
   /- 8456 -/ { field := k!"luminousIntensityExp", path := (.first [k!"LUMINOUS-INTENSITY-EXP"] .nil), item := (.prim .numerical) },
   /- 8457 -/ { field := k!"massExp", path := (.first [k!"MASS-EXP"] .nil), item := (.prim .numerical) },
   /- 8458 -/ { field := k!"molarAmountExp", path := (.first [k!"MOLAR-AMOUNT-EXP"] .nil), item := (.prim .numerical) },
   /- 8459 -/ { field := k!"temperatureExp", path := (.first [k!"TEMPERATURE-EXP"] .nil), item := (.prim .numerical) },
   /- 8460 -/ { field := k!"timeExp", path := (.first [k!"TIME-EXP"] .nil), item := (.prim .numerical) },
   /- 8461 -/ { field := k!"currentExp", path := (.first [k!"CURRENT-EXP"] .nil), item := (.prim .numerical) }]

/-- `readARPackageElements`, `parser/arxml_parser.py:9023-9318` (the `PhysicalDimension` it makes) -/
def readARPackageElements_PhysicalDimension : List RSlot :=
  [/- 9201 -/ { field := k!"short_name", path := (.first [k!"SHORT-NAME"] .nil), item := .name, req := .always }] ++
  /- 9202 -/ readPhysicalDimension

/-- `readPortInterfaceMappings`, `parser/arxml_parser.py:9003-9016` -/
def readPortInterfaceMappings : List RSlot :=
  [/- 9007 -/ { field := k!"portInterfaceMappings", path := (.all k!"PORT-INTERFACE-MAPPINGS" (.all 0 .nil)), item := (.objs [(k!"VARIABLE-AND-PARAMETER-INTERFACE-MAPPING", k!"readPortInterfaceMappings_VariableAndParameterInterfaceMapping"), (k!"CLIENT-SERVER-INTERFACE-MAPPING", k!"readPortInterfaceMappings_ClientServerInterfaceMapping"), (k!"MODE-INTERFACE-MAPPING", k!"readPortInterfaceMappings_ModeInterfaceMapping")]), elems := true, named := true },
   /- 9016 -/ { field := 0, path := (.all k!"PORT-INTERFACE-MAPPINGS" (.all 0 .nil)), item := (.guard [k!"VARIABLE-AND-PARAMETER-INTERFACE-MAPPING", k!"CLIENT-SERVER-INTERFACE-MAPPING", k!"MODE-INTERFACE-MAPPING"] .unsupported) }]

/-- `readPortInterfaceMappingSet`, `parser/arxml_parser.py:9018-9021` -/
def readPortInterfaceMappingSet : List RSlot :=
  /- 9020 -/ readIdentifiable ++
  /- 9021 -/ readPortInterfaceMappings

/-- `readARPackageElements`, `parser/arxml_parser.py:9023-9318` (the `PortInterfaceMappingSet` it makes) -/
def readARPackageElements_PortInterfaceMappingSet : List RSlot :=
  [/- 9216 -/ { field := k!"short_name", path := (.first [k!"SHORT-NAME"] .nil), item := .name, req := .always }] ++
  /- 9217 -/ readPortInterfaceMappingSet

/-- `readPortPrototypeBlueprint`, `parser/arxml_parser.py:7329-7332` -/
def readPortPrototypeBlueprint : List RSlot :=
  /- 7331 -/ readTrigger ++
  [/- 7332 -/ { field := k!"interfaceRef", path := (.first [k!"INTERFACE-REF"] .nil), item := (.prim .ref) }]

/-- `readARPackageElements`, `parser/arxml_parser.py:9023-9318` (the `PortPrototypeBlueprint` it makes) -/
def readARPackageElements_PortPrototypeBlueprint : List RSlot :=
  [/- 9282 -/ { field := k!"short_name", path := (.first [k!"SHORT-NAME"] .nil), item := .name, req := .always }] ++
  /- 9283 -/ readPortPrototypeBlueprint

/-- `readPostBuildVariantCriterion`, `parser/arxml_parser.py:7872-7875` -/
def readPostBuildVariantCriterion : List RSlot :=
  /- 7874 -/ readIdentifiable ++
  [/- 7875 -/ { field := k!"compuMethodRef", path := (.first [k!"COMPU-METHOD-REF"] .nil), item := (.prim .ref) }]

/-- `readARPackageElements`, `parser/arxml_parser.py:9023-9318` (the `PostBuildVariantCriterion` it makes) -/
def readARPackageElements_PostBuildVariantCriterion : List RSlot :=
  [/- 9306 -/ { field := k!"short_name", path := (.first [k!"SHORT-NAME"] .nil), item := .name, req := .always }] ++
  /- 9307 -/ readPostBuildVariantCriterion

/-- `readPredefinedVariantIncludedVariantRefs`, `parser/arxml_parser.py:7844-7849` -/
def readPredefinedVariantIncludedVariantRefs : List RSlot :=
  [/- 7849 -/ { field := k!"includedVariantRefs", path := (.all k!"INCLUDED-VARIANT-REFS" (.all k!"INCLUDED-VARIANT-REF" .nil)), item := (.prim .ref) }]

/-- `readPredefinedVariantPostBuildVariantCriterionValueSetRefs`, `parser/arxml_parser.py:7851-7856` -/
def readPredefinedVariantPostBuildVariantCriterionValueSetRefs : List RSlot :=
  [/- 7856 -/ { field := k!"postBuildVariantCriterionValueSetRefs", path := (.all k!"POST-BUILD-VARIANT-CRITERION-VALUE-SET-REFS" (.all k!"POST-BUILD-VARIANT-CRITERION-VALUE-SET-REF" .nil)), item := (.prim .ref) }]

/-- `readPredefinedVariantSwSystemconstantValueSetRefs`, `parser/arxml_parser.py:7858-7863` -/
def readPredefinedVariantSwSystemconstantValueSetRefs : List RSlot :=
  [/- 7863 -/ { field := k!"swSystemconstantValueSetRefs", path := (.all k!"SW-SYSTEMCONSTANT-VALUE-SET-REFS" (.all k!"SW-SYSTEMCONSTANT-VALUE-SET-REF" .nil)), item := (.prim .ref) }]

/-- `readPredefinedVariant`, `parser/arxml_parser.py:7865-7870` -/
def readPredefinedVariant : List RSlot :=
  /- 7867 -/ readIdentifiable ++
  /- 7868 -/ readPredefinedVariantIncludedVariantRefs ++
  /- 7869 -/ readPredefinedVariantPostBuildVariantCriterionValueSetRefs ++
  /- 7870 -/ readPredefinedVariantSwSystemconstantValueSetRefs

/-- `readARPackageElements`, `parser/arxml_parser.py:9023-9318` (the `PredefinedVariant` it makes) -/
def readARPackageElements_PredefinedVariant : List RSlot :=
  [/- 9303 -/ { field := k!"short_name", path := (.first [k!"SHORT-NAME"] .nil), item := .name, req := .always }] ++
  /- 9304 -/ readPredefinedVariant

/-- `readRunnableEntityGroupRunnableEntityGroupIRefs`, `parser/arxml_parser.py:3237-3241` -/
def readRunnableEntityGroupRunnableEntityGroupIRefs : List RSlot :=
  [/- 3241 -/ { field := k!"runnableEntityGroupIRefs", path := (.all k!"RUNNABLE-ENTITY-GROUP-IREFS" (.all k!"RUNNABLE-ENTITY-GROUP-IREF" .nil)), item := (.objs [(k!"RUNNABLE-ENTITY-GROUP-IREF", k!"readRunnableEntityGroupRunnableEntityGroupIRefs_InnerRunnableEntityGroupInCompositionInstanceRef")]) }]

/-- `readRunnableEntityGroupRunnableEntityIRefs`, `parser/arxml_parser.py:3243-3247` -/
def readRunnableEntityGroupRunnableEntityIRefs : List RSlot :=
  [/- 3247 -/ { field := k!"runnableEntityIRefs", path := (.all k!"RUNNABLE-ENTITY-IREFS" (.all k!"RUNNABLE-ENTITY-IREF" .nil)), item := (.objs [(k!"RUNNABLE-ENTITY-IREF", k!"readRunnableEntityGroupRunnableEntityIRefs_RunnableEntityInCompositionInstanceRef")]) }]

/-- `readRunnableEntityGroup`, `parser/arxml_parser.py:3249-3253` -/
def readRunnableEntityGroup : List RSlot :=
  /- 3251 -/ readIdentifiable ++
  /- 3252 -/ readRunnableEntityGroupRunnableEntityGroupIRefs ++
  /- 3253 -/ readRunnableEntityGroupRunnableEntityIRefs

/-- `readARPackageElements`, `parser/arxml_parser.py:9023-9318` (the `RunnableEntityGroup` it makes); also `readConsistencyNeedsRegDoesNotRequireStabilitys`, `readConsistencyNeedsRegRequiresStabilitys` -/
def readARPackageElements_RunnableEntityGroup : List RSlot :=
  [/- 9033 -/ { field := k!"short_name", path := (.first [k!"SHORT-NAME"] .nil), item := .name, req := .always }] ++
  /- 9034 -/ readRunnableEntityGroup

/-- `readSecureCommunicationPropsSetAuthenticationProps`, `parser/arxml_parser.py:6492-6499` -/
def readSecureCommunicationPropsSetAuthenticationProps : List RSlot :=
  [/- 6496 -/ { field := k!"authenticationProps", path := (.all k!"AUTHENTICATION-PROPSS" (.all k!"SECURE-COMMUNICATION-AUTHENTICATION-PROPS" .nil)), item := (.objs [(k!"SECURE-COMMUNICATION-AUTHENTICATION-PROPS", k!"readSecureCommunicationPropsSetAuthenticationProps_SecureCommunicationAuthenticationProps")]), elems := true, named := true },
   /- 6499 -/ { field := 0, path := (.all k!"AUTHENTICATION-PROPSS" (.all 0 .nil)), item := (.guard [k!"SECURE-COMMUNICATION-AUTHENTICATION-PROPS"] .unsupported) }]

/-- `readSecureCommunicationPropsSetFreshnessProps`, `parser/arxml_parser.py:6509-6516` -/
def readSecureCommunicationPropsSetFreshnessProps : List RSlot :=
  [/- 6513 -/ { field := k!"freshnessProps", path := (.all k!"FRESHNESS-PROPSS" (.all k!"SECURE-COMMUNICATION-FRESHNESS-PROPS" .nil)), item := (.objs [(k!"SECURE-COMMUNICATION-FRESHNESS-PROPS", k!"readSecureCommunicationPropsSetFreshnessProps_SecureCommunicationFreshnessProps")]), elems := true, named := true },
   /- 6516 -/ { field := 0, path := (.all k!"FRESHNESS-PROPSS" (.all 0 .nil)), item := (.guard [k!"SECURE-COMMUNICATION-FRESHNESS-PROPS"] .unsupported) }]

/-- `readSecureCommunicationPropsSet`, `parser/arxml_parser.py:6518-6522` -/
def readSecureCommunicationPropsSet : List RSlot :=
  /- 6520 -/ readIdentifiable ++
  /- 6521 -/ readSecureCommunicationPropsSetAuthenticationProps ++
  /- 6522 -/ readSecureCommunicationPropsSetFreshnessProps

/-- `readARPackageElements`, `parser/arxml_parser.py:9023-9318` (the `SecureCommunicationPropsSet` it makes) -/
def readARPackageElements_SecureCommunicationPropsSet : List RSlot :=
  [/- 9246 -/ { field := k!"short_name", path := (.first [k!"SHORT-NAME"] .nil), item := .name, req := .always }] ++
  /- 9247 -/ readSecureCommunicationPropsSet

/-- `readSecuredIPdu`, `parser/arxml_parser.py:6774-6781` -/
def readSecuredIPdu : List RSlot :=
  /- 6776 -/ readIPdu ++
  [/- 6777 -/ { field := k!"authenticationPropsRef", path := (.first [k!"AUTHENTICATION-PROPS-REF"] .nil), item := (.prim .ref) },
   /- 6778 -/ { field := k!"freshnessPropsRef", path := (.first [k!"FRESHNESS-PROPS-REF"] .nil), item := (.prim .ref) },
   /- 6779 -/ { field := k!"payloadRef", path := (.first [k!"PAYLOAD-REF"] .nil), item := (.prim .ref) },
   /- 6780 -/ { field := k!"secureCommunicationProps", path := (.first [k!"SECURE-COMMUNICATION-PROPS"] .nil), item := (.objs [(k!"SECURE-COMMUNICATION-PROPS", k!"getSecureCommunicationProps_SecureCommunicationProps")]) },
   /- 6781 -/ { field := k!"useAsCryptographicIPdu", path := (.first [k!"USE-AS-CRYPTOGRAPHIC-I-PDU"] .nil), item := (.prim .boolean) }]

/-- `readARPackageElements`, `parser/arxml_parser.py:9023-9318` (the `SecuredIPdu` it makes) -/
def readARPackageElements_SecuredIPdu : List RSlot :=
  [/- 9147 -/ { field := k!"short_name", path := (.first [k!"SHORT-NAME"] .nil), item := .name, req := .always }] ++
  /- 9148 -/ readSecuredIPdu

/-- `readSenderReceiverInterfaceDataElements`, `parser/arxml_parser.py:5002-5011` -/
def readSenderReceiverInterfaceDataElements : List RSlot :=
  [/- 5006 -/ { field := k!"elements", path := (.all k!"DATA-ELEMENTS" (.all k!"VARIABLE-DATA-PROTOTYPE" .nil)), item := (.objs [(k!"VARIABLE-DATA-PROTOTYPE", k!"readNvBlockDescriptor_VariableDataPrototype")]), elems := true, named := true },
   /- 5011 -/ { field := 0, path := (.all k!"DATA-ELEMENTS" (.all 0 .nil)), item := (.guard [k!"VARIABLE-DATA-PROTOTYPE"] .unsupported) }]

/-- `readSenderReceiverInterfaceInvalidationPolicies`, `parser/arxml_parser.py:5013-5018` -/
def readSenderReceiverInterfaceInvalidationPolicies : List RSlot :=
  [/- 5018 -/ { field := k!"invalidationPolicies", path := (.all k!"INVALIDATION-POLICYS" (.all k!"INVALIDATION-POLICY" .nil)), item := (.objs [(k!"INVALIDATION-POLICY", k!"readSenderReceiverInterfaceInvalidationPolicies_InvalidationPolicy")]) }]

/-- `readSenderReceiverInterface`, `parser/arxml_parser.py:5028-5033` -/
def readSenderReceiverInterface : List RSlot :=
  /- 5030 -/ readIdentifiable ++
  [/- 5031 -/ { field := k!"isService", path := (.first [k!"IS-SERVICE"] .nil), item := (.prim .boolean) }] ++
  /- 5032 -/ readSenderReceiverInterfaceDataElements ++
  /- 5033 -/ readSenderReceiverInterfaceInvalidationPolicies

/-- `readARPackageElements`, `parser/arxml_parser.py:9023-9318` (the `SenderReceiverInterface` it makes) -/
def readARPackageElements_SenderReceiverInterface : List RSlot :=
  [/- 9066 -/ { field := k!"short_name", path := (.first [k!"SHORT-NAME"] .nil), item := .name, req := .always }] ++
  /- 9067 -/ readSenderReceiverInterface

/-- `readSensorActuatorSwComponentType`, `parser/arxml_parser.py:4786-4789` -/
def readSensorActuatorSwComponentType : List RSlot :=
  /- 4788 -/ readAtomicSwComponentType ++
  [/- 4789 -/ { field := k!"sensorActuatorRef", path := (.first [k!"SENSOR-ACTUATOR-REF"] .nil), item := (.prim .ref) }]

/-- `readARPackageElements`, `parser/arxml_parser.py:9023-9318` (the `SensorActuatorSwComponentType` it makes) -/
def readARPackageElements_SensorActuatorSwComponentType : List RSlot :=
  [/- 9111 -/ { field := k!"short_name", path := (.first [k!"SHORT-NAME"] .nil), item := .name, req := .always }] ++
  /- 9112 -/ readSensorActuatorSwComponentType

/-- `readSignalServiceTranslationPropsSet`, `parser/arxml_parser.py:8561-8566` -/
def readSignalServiceTranslationPropsSet : List RSlot :=
  /- 8563 -/ readIdentifiable ++
  [/- 8565 -/ { field := k!"signalServiceTranslationProps", path := (.all k!"SIGNAL-SERVICE-TRANSLATION-PROPS" .nil), item := (.objs [(k!"SIGNAL-SERVICE-TRANSLATION-PROPS", k!"readSignalServiceTranslationPropsSet_SignalServiceTranslationProps")]), elems := true, named := true, fresh := true }]

/-- `readARPackageElements`, `parser/arxml_parser.py:9023-9318` (the `SignalServiceTranslationPropsSet` it makes) -/
def readARPackageElements_SignalServiceTranslationPropsSet : List RSlot :=
  [/- 9192 -/ { field := k!"short_name", path := (.first [k!"SHORT-NAME"] .nil), item := .name, req := .always }] ++
  /- 9193 -/ readSignalServiceTranslationPropsSet

/-- `readSoAdRoutingGroup`, `parser/arxml_parser.py:6524-6527` -/
def readSoAdRoutingGroup : List RSlot :=
  /- 6526 -/ readIdentifiable ++
  [/- 6527 -/ { field := k!"eventGroupControlType", path := (.first [k!"EVENT-GROUP-CONTROL-TYPE"] .nil), item := (.prim .lit) }]

/-- `readARPackageElements`, `parser/arxml_parser.py:9023-9318` (the `SoAdRoutingGroup` it makes) -/
def readARPackageElements_SoAdRoutingGroup : List RSlot :=
  [/- 9249 -/ { field := k!"short_name", path := (.first [k!"SHORT-NAME"] .nil), item := .name, req := .always }] ++
  /- 9250 -/ readSoAdRoutingGroup

/-- `readSwAddrMethod`, `parser/arxml_parser.py:5647-5660` -/
def readSwAddrMethod : List RSlot :=
  /- 5649 -/ readIdentifiable ++
  [/- 5652 -/ { field := k!"memoryAllocationKeywordPolicy", path := (.first [k!"MEMORY-ALLOCATION-KEYWORD-POLICY"] .nil), item := (.prim .litPlain) },
   /- 5654 -/ { field := k!"options", path := (.all k!"OPTIONS" (.all k!"OPTION" .nil)), item := (.prim .litPlain) },
   /- 5657 -/ { field := k!"sectionInitializationPolicy", path := (.first [k!"SECTION-INITIALIZATION-POLICY"] .nil), item := (.prim .litPlain) },
   /- 5660 -/ { field := k!"sectionType", path := (.first [k!"SECTION-TYPE"] .nil), item := (.prim .litPlain) }]

/-- `readARPackageElements`, `parser/arxml_parser.py:9023-9318` (the `SwAddrMethod` it makes) -/
def readARPackageElements_SwAddrMethod : List RSlot :=
  [/- 9102 -/ { field := k!"short_name", path := (.first [k!"SHORT-NAME"] .nil), item := .name, req := .always }] ++
  /- 9103 -/ readSwAddrMethod

/-- `readBaseTypeDirectDefinition`, `parser/arxml_parser.py:4124-4129` -/
def readBaseTypeDirectDefinition : List RSlot :=
  [/- 4125 -/ { field := k!"baseTypeSize", path := (.first [k!"BASE-TYPE-SIZE"] .nil), item := (.prim .positive) },
   /- 4126 -/ { field := k!"baseTypeEncoding", path := (.first [k!"BASE-TYPE-ENCODING"] .nil), item := (.prim .lit) },
   /- 4127 -/ { field := k!"memAlignment", path := (.first [k!"MEM-ALIGNMENT"] .nil), item := (.prim .positive) },
   /- 4128 -/ { field := k!"byteOrder", path := (.first [k!"BYTE-ORDER"] .nil), item := (.prim .lit) },
   /- 4129 -/ { field := k!"nativeDeclaration", path := (.first [k!"NATIVE-DECLARATION"] .nil), item := (.prim .lit) }]

/-- `readSwBaseType`, `parser/arxml_parser.py:4131-4134` (the `BaseTypeDirectDefinition` it makes) -/
def readSwBaseType_BaseTypeDirectDefinition : List RSlot :=
  /- 4134 -/ readBaseTypeDirectDefinition

/-- `readSwBaseType`, `parser/arxml_parser.py:4131-4134` -/
def readSwBaseType : List RSlot :=
  /- 4133 -/ readIdentifiable ++
  /- 171 -/ part k!"baseTypeDefinition" .nil readSwBaseType_BaseTypeDirectDefinition

/-- `readARPackageElements`, `parser/arxml_parser.py:9023-9318` (the `SwBaseType` it makes) -/
def readARPackageElements_SwBaseType : List RSlot :=
  [/- 9051 -/ { field := k!"short_name", path := (.first [k!"SHORT-NAME"] .nil), item := .name, req := .always }] ++
  /- 9052 -/ readSwBaseType

/-- `readSwRecordLayout`, `parser/arxml_parser.py:5642-5645` -/
def readSwRecordLayout : List RSlot :=
  /- 5644 -/ readIdentifiable ++
  [/- 5645 -/ { field := k!"swRecordLayoutGroup", path := (.first [k!"SW-RECORD-LAYOUT-GROUP"] .nil), item := (.objs [(k!"SW-RECORD-LAYOUT-GROUP", k!"getSwRecordLayoutGroup_SwRecordLayoutGroup")]) }]

/-- `readARPackageElements`, `parser/arxml_parser.py:9023-9318` (the `SwRecordLayout` it makes) -/
def readARPackageElements_SwRecordLayout : List RSlot :=
  [/- 9099 -/ { field := k!"short_name", path := (.first [k!"SHORT-NAME"] .nil), item := .name, req := .always }] ++
  /- 9100 -/ readSwRecordLayout

/-- `readARPackageElements`, `parser/arxml_parser.py:9023-9318` (the `SwSystemconst` it makes) -/
def readARPackageElements_SwSystemconst : List RSlot :=
  [/- 9297 -/ { field := k!"short_name", path := (.first [k!"SHORT-NAME"] .nil), item := .name, req := .always }] ++
  /- 9298 -/ readSwSystemconst

/-- `readSwSystemconstantValueSetSwSystemconstantValues`, `parser/arxml_parser.py:7829-7837` -/
def readSwSystemconstantValueSetSwSystemconstantValues : List RSlot :=
  [/- 7835 -/ { field := k!"swSystemconstantValues", path := (.all k!"SW-SYSTEMCONSTANT-VALUES" (.all k!"SW-SYSTEMCONST-VALUE" .nil)), item := (.objs [(k!"SW-SYSTEMCONST-VALUE", k!"readSwSystemconstantValueSetSwSystemconstantValues_SwSystemconstValue")]) },
   /- 7837 -/ { field := 0, path := (.all k!"SW-SYSTEMCONSTANT-VALUES" (.all 0 .nil)), item := (.guard [k!"SW-SYSTEMCONST-VALUE"] .unsupported) }]

/-- `readSwSystemconstantValueSet`, `parser/arxml_parser.py:7839-7842` -/
def readSwSystemconstantValueSet : List RSlot :=
  /- 7841 -/ readIdentifiable ++
  /- 7842 -/ readSwSystemconstantValueSetSwSystemconstantValues

/-- `readARPackageElements`, `parser/arxml_parser.py:9023-9318` (the `SwSystemconstantValueSet` it makes) -/
def readARPackageElements_SwSystemconstantValueSet : List RSlot :=
  [/- 9300 -/ { field := k!"short_name", path := (.first [k!"SHORT-NAME"] .nil), item := .name, req := .always }] ++
  /- 9301 -/ readSwSystemconstantValueSet

/-- `readSwcBswMappingSwcBswRunnableMappings`, `parser/arxml_parser.py:5216-5221` -/
def readSwcBswMappingSwcBswRunnableMappings : List RSlot :=
  [/- 5221 -/ { field := k!"runnableMappings", path := (.all k!"RUNNABLE-MAPPINGS" (.all k!"SWC-BSW-RUNNABLE-MAPPING" .nil)), item := (.objs [(k!"SWC-BSW-RUNNABLE-MAPPING", k!"readSwcBswMappingSwcBswRunnableMappings_SwcBswRunnableMapping")]) }]

/-- `readSwcBswMappingSwcBswSynchronizedModeGroups`, `parser/arxml_parser.py:5243-5245` -/
def readSwcBswMappingSwcBswSynchronizedModeGroups : List RSlot :=
  [/- 5245 -/ { field := k!"synchronizedModeGroups", path := (.all k!"SYNCHRONIZED-MODE-GROUPS" (.all k!"SWC-BSW-SYNCHRONIZED-MODE-GROUP-PROTOTYPE" .nil)), item := (.objs [(k!"SWC-BSW-SYNCHRONIZED-MODE-GROUP-PROTOTYPE", k!"readSwcBswSynchronizedModeGroupPrototype_SwcBswSynchronizedModeGroupPrototype")]) }]

/-- `readSwcBswMappingSwcBswSynchronizedTriggers`, `parser/arxml_parser.py:5247-5249` -/
def readSwcBswMappingSwcBswSynchronizedTriggers : List RSlot :=
  [/- 5249 -/ { field := k!"synchronizedTriggers", path := (.all k!"SYNCHRONIZED-TRIGGERS" (.all k!"SWC-BSW-SYNCHRONIZED-TRIGGER" .nil)), item := (.objs [(k!"SWC-BSW-SYNCHRONIZED-TRIGGER", k!"readSwcBswSynchronizedTrigger_SwcBswSynchronizedTrigger")]) }]

/-- `readSwcBswMapping`, `parser/arxml_parser.py:5251-5258` -/
def readSwcBswMapping : List RSlot :=
  /- 5253 -/ readIdentifiable ++
  [/- 5254 -/ { field := k!"bswBehaviorRef", path := (.first [k!"BSW-BEHAVIOR-REF"] .nil), item := (.prim .ref) }] ++
  /- 5255 -/ readSwcBswMappingSwcBswRunnableMappings ++
  /- 5256 -/ readSwcBswMappingSwcBswSynchronizedModeGroups ++
  /- 5257 -/ readSwcBswMappingSwcBswSynchronizedTriggers ++
  [/- 5258 -/ { field := k!"swcBehaviorRef", path := (.first [k!"SWC-BEHAVIOR-REF"] .nil), item := (.prim .ref) }]

/-- `readARPackageElements`, `parser/arxml_parser.py:9023-9318` (the `SwcBswMapping` it makes) -/
def readARPackageElements_SwcBswMapping : List RSlot :=
  [/- 9078 -/ { field := k!"short_name", path := (.first [k!"SHORT-NAME"] .nil), item := .name, req := .always }] ++
  /- 9079 -/ readSwcBswMapping

/-- `readSwcImplementation`, `parser/arxml_parser.py:3043-3050` -/
def readSwcImplementation : List RSlot :=
  /- 3045 -/ readImplementation ++
  [/- 3046 -/ { field := k!"behaviorRef", path := (.first [k!"BEHAVIOR-REF"] .nil), item := (.prim .ref) }]

/-- `readARPackageElements`, `parser/arxml_parser.py:9023-9318` (the `SwcImplementation` it makes) -/
def readARPackageElements_SwcImplementation : List RSlot :=
  [/- 9042 -/ { field := k!"short_name", path := (.first [k!"SHORT-NAME"] .nil), item := .name, req := .always }] ++
  /- 9043 -/ readSwcImplementation

/-- `readExecutionOrderConstraint`, `parser/arxml_parser.py:5732-5737` -/
def readExecutionOrderConstraint : List RSlot :=
  [/- 5735 -/ { field := k!"timing_requirements", path := .nil, item := (.objs [(k!"EXECUTION-ORDER-CONSTRAINT", k!"readExecutionOrderConstraint_ExecutionOrderConstraint")]), elems := true, named := true }]

/-- `readTimingExtension`, `parser/arxml_parser.py:5739-5745` -/
def readTimingExtension : List RSlot :=
  /- 5743 -/ via (.all k!"TIMING-REQUIREMENTS" (.all k!"EXECUTION-ORDER-CONSTRAINT" .nil)) readExecutionOrderConstraint ++
  [/- 5745 -/ { field := 0, path := (.all k!"TIMING-REQUIREMENTS" (.all 0 .nil)), item := (.guard [k!"EXECUTION-ORDER-CONSTRAINT"] .invalid) }]

/-- `readSwcTiming`, `parser/arxml_parser.py:5747-5750` -/
def readSwcTiming : List RSlot :=
  /- 5749 -/ readIdentifiable ++
  /- 5750 -/ readTimingExtension

/-- `readARPackageElements`, `parser/arxml_parser.py:9023-9318` (the `SwcTiming` it makes) -/
def readARPackageElements_SwcTiming : List RSlot :=
  [/- 9129 -/ { field := k!"short_name", path := (.first [k!"SHORT-NAME"] .nil), item := .name, req := .always }] ++
  /- 9130 -/ readSwcTiming

/-- `readSystemFibexElementRefs`, `parser/arxml_parser.py:8849-8851` -/
def readSystemFibexElementRefs : List RSlot :=
  [/- 8851 -/ { field := k!"fibexElements", path := (.all k!"FIBEX-ELEMENTS" (.all k!"FIBEX-ELEMENT-REF-CONDITIONAL" (.all k!"FIBEX-ELEMENT-REF" .nil))), item := (.prim .ref) }]

/-- `readSystemMappings`, `parser/arxml_parser.py:8823-8830` -/
def readSystemMappings : List RSlot :=
  [/- 8827 -/ { field := k!"elements", path := (.all k!"MAPPINGS" (.all k!"SYSTEM-MAPPING" .nil)), item := (.objs [(k!"SYSTEM-MAPPING", k!"readSystemMappings_SystemMapping")]), elems := true, named := true },
   /- 8830 -/ { field := 0, path := (.all k!"MAPPINGS" (.all 0 .nil)), item := (.guard [k!"SYSTEM-MAPPING"] .unsupported) }]

/-- `readRootSwCompositionPrototype`, `parser/arxml_parser.py:8832-8847` -/
def readRootSwCompositionPrototype : List RSlot :=
  [/- 8837 -/ { field := k!"rootSoftwareComposition", path := (.first [k!"ROOT-SOFTWARE-COMPOSITIONS", k!"ROOT-SW-COMPOSITION-PROTOTYPE"] .nil), item := (.objs [(k!"ROOT-SW-COMPOSITION-PROTOTYPE", k!"readRootSwCompositionPrototype_RootSwCompositionPrototype")]), elems := true, named := true, fresh := true }]

/-- `readSystem`, `parser/arxml_parser.py:8853-8862` -/
def readSystem : List RSlot :=
  /- 8855 -/ readIdentifiable ++
  [/- 8856 -/ { field := k!"ecuExtractVersion", path := (.first [k!"ECU-EXTRACT-VERSION"] .nil), item := (.prim .lit) }] ++
  /- 8857 -/ readSystemFibexElementRefs ++
  /- 8858 -/ readSystemMappings ++
  /- 8859 -/ readRootSwCompositionPrototype ++
  [/- 8860 -/ { field := k!"systemVersion", path := (.first [k!"SYSTEM-VERSION"] .nil), item := (.prim .revision) }]

/-- `readARPackageElements`, `parser/arxml_parser.py:9023-9318` (the `System` it makes) -/
def readARPackageElements_System : List RSlot :=
  [/- 9159 -/ { field := k!"short_name", path := (.first [k!"SHORT-NAME"] .nil), item := .name, req := .always }] ++
  /- 9160 -/ readSystem

/-- `readSystemSignal`, `parser/arxml_parser.py:8548-8552` -/
def readSystemSignal : List RSlot :=
  /- 8550 -/ readIdentifiable ++
  [/- 8551 -/ { field := k!"dynamicLength", path := (.first [k!"DYNAMIC-LENGTH"] .nil), item := (.prim .boolean) },
   /- 8552 -/ { field := k!"physicalProps", path := (.first [k!"PHYSICAL-PROPS"] .nil), item := (.objs [(k!"PHYSICAL-PROPS", k!"getSwDataDefProps_SwDataDefProps")]) }]

/-- `readARPackageElements`, `parser/arxml_parser.py:9023-9318` (the `SystemSignal` it makes) -/
def readARPackageElements_SystemSignal : List RSlot :=
  [/- 9186 -/ { field := k!"short_name", path := (.first [k!"SHORT-NAME"] .nil), item := .name, req := .always }] ++
  /- 9187 -/ readSystemSignal

/-- `readSystemSignalGroup`, `parser/arxml_parser.py:8554-8559` -/
def readSystemSignalGroup : List RSlot :=
  /- 8556 -/ readIdentifiable ++
  [/- 8558 -/ { field := k!"systemSignalRefs", path := (.all k!"SYSTEM-SIGNAL-REFS" (.all k!"SYSTEM-SIGNAL-REF" .nil)), item := (.prim .ref) },
   /- 8559 -/ { field := k!"transformingSystemSignalRef", path := (.first [k!"TRANSFORMING-SYSTEM-SIGNAL-REF"] .nil), item := (.prim .ref) }]

/-- `readARPackageElements`, `parser/arxml_parser.py:9023-9318` (the `SystemSignalGroup` it makes) -/
def readARPackageElements_SystemSignalGroup : List RSlot :=
  [/- 9189 -/ { field := k!"short_name", path := (.first [k!"SHORT-NAME"] .nil), item := .name, req := .always }] ++
  /- 9190 -/ readSystemSignalGroup

/-- `readARPackageElements`, `parser/arxml_parser.py:9023-9318` (the `TriggerInterface` it makes); also `readBswInternalBehaviorInternalTriggeringPoints`, `readBswModuleDescriptionRequiredTriggers` -/
def readARPackageElements_TriggerInterface : List RSlot :=
  [/- 9105 -/ { field := k!"short_name", path := (.first [k!"SHORT-NAME"] .nil), item := .name, req := .always }] ++
  /- 9106 -/ readTrigger

/-- `readUnit`, `parser/arxml_parser.py:5467-5473` -/
def readUnit : List RSlot :=
  /- 5469 -/ readIdentifiable ++
  [/- 5470 -/ { field := k!"displayName", path := (.first [k!"DISPLAY-NAME"] .nil), item := (.prim .lit) },
   /- 5471 -/ { field := k!"factorSiToUnit", path := (.first [k!"FACTOR-SI-TO-UNIT"] .nil), item := (.prim .float) },
   /- 5472 -/ { field := k!"offsetSiToUnit", path := (.first [k!"OFFSET-SI-TO-UNIT"] .nil), item := (.prim .float) },
   /- 5473 -/ { field := k!"physicalDimensionRef", path := (.first [k!"PHYSICAL-DIMENSION-REF"] .nil), item := (.prim .ref) }]

/-- `readARPackageElements`, `parser/arxml_parser.py:9023-9318` (the `Unit` it makes) -/
def readARPackageElements_Unit : List RSlot :=
  [/- 9069 -/ { field := k!"short_name", path := (.first [k!"SHORT-NAME"] .nil), item := .name, req := .always }] ++
  /- 9070 -/ readUnit

/-- `readUserDefinedIPdu`, `parser/arxml_parser.py:6470-6473` -/
def readUserDefinedIPdu : List RSlot :=
  /- 6472 -/ readIPdu ++
  [/- 6473 -/ { field := k!"cddType", path := (.first [k!"CDD-TYPE"] .nil), item := (.prim .lit) }]

/-- `readARPackageElements`, `parser/arxml_parser.py:9023-9318` (the `UserDefinedIPdu` it makes) -/
def readARPackageElements_UserDefinedIPdu : List RSlot :=
  [/- 9234 -/ { field := k!"short_name", path := (.first [k!"SHORT-NAME"] .nil), item := .name, req := .always }] ++
  /- 9235 -/ readUserDefinedIPdu

/-- `readUserDefinedPdu`, `parser/arxml_parser.py:6475-6478` -/
def readUserDefinedPdu : List RSlot :=
  /- 6477 -/ readPdu ++
  [/- 6478 -/ { field := k!"cddType", path := (.first [k!"CDD-TYPE"] .nil), item := (.prim .lit) }]

/-- `readARPackageElements`, `parser/arxml_parser.py:9023-9318` (the `UserDefinedPdu` it makes) -/
def readARPackageElements_UserDefinedPdu : List RSlot :=
  [/- 9237 -/ { field := k!"short_name", path := (.first [k!"SHORT-NAME"] .nil), item := .name, req := .always }] ++
  /- 9238 -/ readUserDefinedPdu

/-- `readARPackages`, `parser/arxml_parser.py:9403-9410` (the `ARPackage` it makes) -/
def readARPackages_ARPackage : List RSlot :=
  [/- 9407 -/ { field := k!"short_name", path := (.first [k!"SHORT-NAME"] .nil), item := .name, req := .always }] ++
  /- 9408 -/ readARPackage

/-- `readCommunicationController`, `parser/arxml_parser.py:7877-7878` -/
def readCommunicationController : List RSlot :=
  [/- 7878 -/ { field := k!"wakeUpByControllerSupported", path := (.first [k!"WAKE-UP-BY-CONTROLLER-SUPPORTED"] .nil), item := (.prim .boolean) }]

/-- `readAbstractCanCommunicationControllerCanControllerAttributes`, `parser/arxml_parser.py:7992-8000` -/
def readAbstractCanCommunicationControllerCanControllerAttributes : List RSlot :=
  [/- 7998 -/ { field := k!"canControllerAttributes", path := (.all k!"CAN-CONTROLLER-ATTRIBUTES" (.all k!"CAN-CONTROLLER-CONFIGURATION-REQUIREMENTS" .nil)), item := (.objs [(k!"CAN-CONTROLLER-CONFIGURATION-REQUIREMENTS", k!"readAbstractCanCommunicationControllerCanControllerAttributes_CanControllerConfigurationRequirements")]), last := true },
   /- 8000 -/ { field := 0, path := (.all k!"CAN-CONTROLLER-ATTRIBUTES" (.all 0 .nil)), item := (.guard [k!"CAN-CONTROLLER-CONFIGURATION-REQUIREMENTS"] .unsupported) }]

/-- `readAbstractCanCommunicationController`, `parser/arxml_parser.py:8002-8004` -/
def readAbstractCanCommunicationController : List RSlot :=
  /- 8003 -/ readCommunicationController ++
  /- 8004 -/ readAbstractCanCommunicationControllerCanControllerAttributes

/-- `readAbstractCanCommunicationControllerAttributes`, `parser/arxml_parser.py:7977-7981` -/
def readAbstractCanCommunicationControllerAttributes : List RSlot :=
  [/- 7978 -/ { field := k!"canControllerFdAttributes", path := (.first [k!"CAN-CONTROLLER-FD-CONFIGURATION"] .nil), item := (.objs [(k!"CAN-CONTROLLER-FD-CONFIGURATION", k!"getCanControllerFdConfiguration_CanControllerFdConfiguration")]) },
   /- 7979 -/ { field := k!"canControllerFdRequirements", path := (.first [k!"CAN-CONTROLLER-FD-REQUIREMENTS"] .nil), item := (.objs [(k!"CAN-CONTROLLER-FD-REQUIREMENTS", k!"getCanControllerFdConfigurationRequirements_CanControllerFdConfigurationRequirements")]) },
   /- 7980 -/ { field := k!"canControllerXlAttributes", path := (.first [k!"CAN-CONTROLLER-XL-CONFIGURATION"] .nil), item := (.objs [(k!"CAN-CONTROLLER-XL-CONFIGURATION", k!"getCanControllerXlConfiguration_CanControllerXlConfiguration")]) },
   /- 7981 -/ { field := k!"canControllerXlRequirements", path := (.first [k!"CAN-CONTROLLER-XL-REQUIREMENTS"] .nil), item := (.objs [(k!"CAN-CONTROLLER-XL-REQUIREMENTS", k!"getCanControllerXlConfigurationRequirements_CanControllerXlConfigurationRequirements")]) }]

/-- `readCanControllerConfigurationRequirements`, `parser/arxml_parser.py:7983-7990` -/
def readCanControllerConfigurationRequirements : List RSlot :=
  /- 7984 -/ readAbstractCanCommunicationControllerAttributes ++
  [/- 7985 -/ { field := k!"maxNumberOfTimeQuantaPerBit", path := (.first [k!"MAX-NUMBER-OF-TIME-QUANTA-PER-BIT"] .nil), item := (.prim .integer) },
   /- 7986 -/ { field := k!"maxSamplePoint", path := (.first [k!"MAX-SAMPLE-POINT"] .nil), item := (.prim .float) },
   /- 7987 -/ { field := k!"maxSyncJumpWidth", path := (.first [k!"MAX-SYNC-JUMP-WIDTH"] .nil), item := (.prim .float) },
   /- 7988 -/ { field := k!"minNumberOfTimeQuantaPerBit", path := (.first [k!"MIN-NUMBER-OF-TIME-QUANTA-PER-BIT"] .nil), item := (.prim .integer) },
   /- 7989 -/ { field := k!"minSamplePoint", path := (.first [k!"MIN-SAMPLE-POINT"] .nil), item := (.prim .float) },
   /- 7990 -/ { field := k!"minSyncJumpWidth", path := (.first [k!"MIN-SYNC-JUMP-WIDTH"] .nil), item := (.prim .float) }]

/-- `readAbstractCanCommunicationControllerCanControllerAttributes`, `parser/arxml_parser.py:7992-8000` (the `CanControllerConfigurationRequirements` it makes) -/
def readAbstractCanCommunicationControllerCanControllerAttributes_CanControllerConfigurationRequirements : List RSlot :=
  /- 7997 -/ readCanControllerConfigurationRequirements

/-- `readRequiredComSpec`, `parser/arxml_parser.py:4310-4326` -/
def readRequiredComSpec_PRPortPrototype : List RSlot :=
  [/- 4314 -/ { field := k!"requiredComSpecs", path := (.all k!"REQUIRED-COM-SPECS" (.all 0 .nil)), item := (.objs [(k!"NONQUEUED-RECEIVER-COM-SPEC", k!"getNonqueuedReceiverComSpec_NonqueuedReceiverComSpec"), (k!"CLIENT-COM-SPEC", k!"getClientComSpec_ClientComSpec"), (k!"QUEUED-RECEIVER-COM-SPEC", k!"getQueuedReceiverComSpec_QueuedReceiverComSpec"), (k!"MODE-SWITCH-RECEIVER-COM-SPEC", k!"getModeSwitchReceiverComSpec_ModeSwitchReceiverComSpec"), (k!"PARAMETER-REQUIRE-COM-SPEC", k!"getParameterRequireComSpec_ParameterRequireComSpec"), (k!"NV-REQUIRE-COM-SPEC", k!"getNvRequireComSpec_NvRequireComSpec")]) },
   /- 4326 -/ { field := 0, path := (.all k!"REQUIRED-COM-SPECS" (.all 0 .nil)), item := (.guard [k!"NONQUEUED-RECEIVER-COM-SPEC", k!"CLIENT-COM-SPEC", k!"QUEUED-RECEIVER-COM-SPEC", k!"MODE-SWITCH-RECEIVER-COM-SPEC", k!"PARAMETER-REQUIRE-COM-SPEC", k!"NV-REQUIRE-COM-SPEC"] .invalid) }]

/-- `readAbstractProvidedPortPrototype`, `parser/arxml_parser.py:4338-4339` -/
def readAbstractProvidedPortPrototype_PRPortPrototype : List RSlot :=
  /- 4339 -/ readRequiredComSpec_PRPortPrototype

/-- `readRequiredComSpec`, `parser/arxml_parser.py:4310-4326` -/
def readRequiredComSpec : List RSlot :=
  [/- 4314 -/ { field := k!"requiredComSpecs", path := (.all k!"REQUIRED-COM-SPECS" (.all 0 .nil)), item := (.objs [(k!"NONQUEUED-RECEIVER-COM-SPEC", k!"getNonqueuedReceiverComSpec_NonqueuedReceiverComSpec_port"), (k!"CLIENT-COM-SPEC", k!"getClientComSpec_ClientComSpec_port"), (k!"QUEUED-RECEIVER-COM-SPEC", k!"getQueuedReceiverComSpec_QueuedReceiverComSpec"), (k!"MODE-SWITCH-RECEIVER-COM-SPEC", k!"getModeSwitchReceiverComSpec_ModeSwitchReceiverComSpec"), (k!"PARAMETER-REQUIRE-COM-SPEC", k!"getParameterRequireComSpec_ParameterRequireComSpec_port"), (k!"NV-REQUIRE-COM-SPEC", k!"getNvRequireComSpec_NvRequireComSpec_port")]) },
   /- 4326 -/ { field := 0, path := (.all k!"REQUIRED-COM-SPECS" (.all 0 .nil)), item := (.guard [k!"NONQUEUED-RECEIVER-COM-SPEC", k!"CLIENT-COM-SPEC", k!"QUEUED-RECEIVER-COM-SPEC", k!"MODE-SWITCH-RECEIVER-COM-SPEC", k!"PARAMETER-REQUIRE-COM-SPEC", k!"NV-REQUIRE-COM-SPEC"] .invalid) }]

/-- `readAbstractProvidedPortPrototype`, `parser/arxml_parser.py:4338-4339` -/
def readAbstractProvidedPortPrototype_RPortPrototype : List RSlot :=
  /- 4339 -/ readRequiredComSpec

/-- `readProvidedComSpec`, `parser/arxml_parser.py:4544-4560` -/
def readProvidedComSpec : List RSlot :=
  [/- 4548 -/ { field := k!"providedComSpecs", path := (.all k!"PROVIDED-COM-SPECS" (.all 0 .nil)), item := (.objs [(k!"NONQUEUED-SENDER-COM-SPEC", k!"getNonqueuedSenderComSpec_NonqueuedSenderComSpec_port"), (k!"SERVER-COM-SPEC", k!"getServerComSpec_ServerComSpec"), (k!"QUEUED-SENDER-COM-SPEC", k!"getQueuedSenderComSpec_QueuedSenderComSpec"), (k!"MODE-SWITCH-SENDER-COM-SPEC", k!"getModeSwitchSenderComSpec_ModeSwitchSenderComSpec"), (k!"NV-PROVIDE-COM-SPEC", k!"getNvProvideComSpec_NvProvideComSpec"), (k!"PARAMETER-PROVIDE-COM-SPEC", k!"getParameterProvideComSpec_ParameterProvideComSpec")]) },
   /- 4560 -/ { field := 0, path := (.all k!"PROVIDED-COM-SPECS" (.all 0 .nil)), item := (.guard [k!"NONQUEUED-SENDER-COM-SPEC", k!"SERVER-COM-SPEC", k!"QUEUED-SENDER-COM-SPEC", k!"MODE-SWITCH-SENDER-COM-SPEC", k!"NV-PROVIDE-COM-SPEC", k!"PARAMETER-PROVIDE-COM-SPEC"] .invalid) }]

/-- `readAbstractRequiredPortPrototype`, `parser/arxml_parser.py:4328-4329` -/
def readAbstractRequiredPortPrototype_PPortPrototype : List RSlot :=
  /- 4329 -/ readProvidedComSpec

/-- `readProvidedComSpec`, `parser/arxml_parser.py:4544-4560` -/
def readProvidedComSpec_PRPortPrototype : List RSlot :=
  [/- 4548 -/ { field := k!"providedComSpecs", path := (.all k!"PROVIDED-COM-SPECS" (.all 0 .nil)), item := (.objs [(k!"NONQUEUED-SENDER-COM-SPEC", k!"getNonqueuedSenderComSpec_NonqueuedSenderComSpec"), (k!"SERVER-COM-SPEC", k!"getServerComSpec_ServerComSpec"), (k!"QUEUED-SENDER-COM-SPEC", k!"getQueuedSenderComSpec_QueuedSenderComSpec"), (k!"MODE-SWITCH-SENDER-COM-SPEC", k!"getModeSwitchSenderComSpec_ModeSwitchSenderComSpec"), (k!"NV-PROVIDE-COM-SPEC", k!"getNvProvideComSpec_NvProvideComSpec"), (k!"PARAMETER-PROVIDE-COM-SPEC", k!"getParameterProvideComSpec_ParameterProvideComSpec")]) },
   /- 4560 -/ { field := 0, path := (.all k!"PROVIDED-COM-SPECS" (.all 0 .nil)), item := (.guard [k!"NONQUEUED-SENDER-COM-SPEC", k!"SERVER-COM-SPEC", k!"QUEUED-SENDER-COM-SPEC", k!"MODE-SWITCH-SENDER-COM-SPEC", k!"NV-PROVIDE-COM-SPEC", k!"PARAMETER-PROVIDE-COM-SPEC"] .invalid) }]

/-- `readAbstractRequiredPortPrototype`, `parser/arxml_parser.py:4328-4329` -/
def readAbstractRequiredPortPrototype_PRPortPrototype : List RSlot :=
  /- 4329 -/ readProvidedComSpec_PRPortPrototype

/-- `readAccessCountSets`, `parser/arxml_parser.py:2731-2740` -/
def readAccessCountSets : List RSlot :=
  [/- 2734 -/ { field := k!"accessCountSets", path := (.all k!"ACCESS-COUNT-SETS" (.all k!"ACCESS-COUNT-SET" .nil)), item := (.objs [(k!"ACCESS-COUNT-SET", k!"readAccessCountSets_AccessCountSet")]) }]

/-- `readAccessCountSets`, `parser/arxml_parser.py:2731-2740` (the `AccessCount` it makes) -/
def readAccessCountSets_AccessCount : List RSlot :=
  [/- 2738 -/ { field := k!"accessPointRef", path := (.first [k!"ACCESS-POINT-REF"] .nil), item := (.prim .ref) },
   /- 2739 -/ { field := k!"value", path := (.first [k!"VALUE"] .nil), item := (.prim .positive) }]

/-- `readAccessCountSets`, `parser/arxml_parser.py:2731-2740` (the `AccessCountSet` it makes) -/
def readAccessCountSets_AccessCountSet : List RSlot :=
  [/- 2735 -/ { field := k!"countProfile", path := (.first [k!"COUNT-PROFILE"] .nil), item := (.prim .lit) },
   /- 2740 -/ { field := k!"accessCounts", path := (.all k!"ACCESS-COUNTS" (.all k!"ACCESS-COUNT" .nil)), item := (.objs [(k!"ACCESS-COUNT", k!"readAccessCountSets_AccessCount")]) }]

/-- `readActivationReasons`, `parser/arxml_parser.py:1215-1218` -/
def readActivationReasons : List RSlot :=
  [/- 1217 -/ { field := k!"activationReasons", path := (.all k!"ACTIVATION-REASONS" (.all k!"EXECUTABLE-ENTITY-ACTIVATION-REASON" .nil)), item := (.objs [(k!"EXECUTABLE-ENTITY-ACTIVATION-REASON", k!"readActivationReasons_ExecutableEntityActivationReason")]), elems := true, named := true }]

/-- `readImplementationProps`, `parser/arxml_parser.py:5563-5565` -/
def readImplementationProps : List RSlot :=
  /- 5564 -/ readReferrable ++
  [/- 5565 -/ { field := k!"symbol", path := (.first [k!"SYMBOL"] .nil), item := (.prim .lit) }]

/-- `readExecutableEntityActivationReason`, `parser/arxml_parser.py:1220-1222` -/
def readExecutableEntityActivationReason : List RSlot :=
  /- 1221 -/ readImplementationProps ++
  [/- 1222 -/ { field := k!"bitPosition", path := (.first [k!"BIT-POSITION"] .nil), item := (.prim .positive) }]

/-- `readActivationReasons`, `parser/arxml_parser.py:1215-1218` (the `ExecutableEntityActivationReason` it makes) -/
def readActivationReasons_ExecutableEntityActivationReason : List RSlot :=
  [/- 1217 -/ { field := k!"short_name", path := (.first [k!"SHORT-NAME"] .nil), item := .name, req := .always }] ++
  /- 1218 -/ readExecutableEntityActivationReason

/-- `readDocRevisionModifications`, `parser/arxml_parser.py:865-873` -/
def readDocRevisionModifications : List RSlot :=
  [/- 871 -/ { field := k!"modifications", path := (.all k!"MODIFICATIONS" (.all k!"MODIFICATION" .nil)), item := (.objs [(k!"MODIFICATION", k!"readDocRevisionModifications_Modification")]) },
   /- 873 -/ { field := 0, path := (.all k!"MODIFICATIONS" (.all 0 .nil)), item := (.guard [k!"MODIFICATION"] .unsupported) }]

/-- `readDocRevision`, `parser/arxml_parser.py:875-881` -/
def readDocRevision : List RSlot :=
  [/- 876 -/ { field := k!"date", path := (.first [k!"DATE"] .nil), item := (.prim .lit) },
   /- 877 -/ { field := k!"issuedBy", path := (.first [k!"ISSUED-BY"] .nil), item := (.prim .lit) },
   /- 878 -/ { field := k!"revisionLabel", path := (.first [k!"REVISION-LABEL"] .nil), item := (.prim .revision) },
   /- 879 -/ { field := k!"state", path := (.first [k!"STATE"] .nil), item := (.prim .lit) }] ++
  /- 881 -/ readDocRevisionModifications

/-- `readAdminDataDocRevisions`, `parser/arxml_parser.py:883-891` (the `DocRevision` it makes) -/
def readAdminDataDocRevisions_DocRevision : List RSlot :=
  /- 888 -/ readDocRevision

/-- `readExecutionTime`, `parser/arxml_parser.py:2593-2613` -/
def readExecutionTime_AnalyzedExecutionTime : List RSlot :=
  /- 2594 -/ readIdentifiable ++
  [/- 2595 -/ { field := k!"exclusiveAreaRef", path := (.first [k!"EXCLUSIVE-AREA-REF"] .nil), item := (.prim .ref) },
   /- 2596 -/ { field := k!"executableEntityRef", path := (.first [k!"EXECUTABLE-ENTITY-REF"] .nil), item := (.prim .ref) },
   /- 2597 -/ { field := k!"hwElementRef", path := (.first [k!"HW-ELEMENT-REF"] .nil), item := (.prim .ref) },
   /- 2602 -/ { field := k!"hardwareConfiguration", path := (.first [k!"HARDWARE-CONFIGURATION"] .nil), item := (.objs [(k!"HARDWARE-CONFIGURATION", k!"readHeapUsage_HardwareConfiguration")]) },
   /- 2604 -/ { field := k!"includedLibraryRefs", path := (.all k!"INCLUDED-LIBRARY-REFS" (.all k!"INCLUDED-LIBRARY-REF" .nil)), item := (.prim .ref) },
   /- 2607 -/ { field := k!"memorySectionLocations", path := (.all k!"MEMORY-SECTION-LOCATIONS" (.all k!"MEMORY-SECTION-LOCATION" .nil)), item := (.objs [(k!"MEMORY-SECTION-LOCATION", k!"readExecutionTime_MemorySectionLocation")]) },
   /- 2613 -/ { field := k!"softwareContext", path := (.first [k!"SOFTWARE-CONTEXT"] .nil), item := (.objs [(k!"SOFTWARE-CONTEXT", k!"readHeapUsage_SoftwareContext")]) }]

/-- `readAnalyzedExecutionTime`, `parser/arxml_parser.py:2615-2626` -/
def readAnalyzedExecutionTime : List RSlot :=
  /- 2616 -/ readExecutionTime_AnalyzedExecutionTime ++
  [/- 2621 -/ { field := k!"bestCaseExecutionTime", path := (.first [k!"BEST-CASE-EXECUTION-TIME"] .nil), item := (.objs [(k!"BEST-CASE-EXECUTION-TIME", k!"readSwRefTiming_MultidimensionalTime")]) },
   /- 2626 -/ { field := k!"worstCaseExecutionTime", path := (.first [k!"WORST-CASE-EXECUTION-TIME"] .nil), item := (.objs [(k!"WORST-CASE-EXECUTION-TIME", k!"readSwRefTiming_MultidimensionalTime")]) }]

/-- `readMultidimensionalTime`, `parser/arxml_parser.py:2576-2578` -/
def readMultidimensionalTime : List RSlot :=
  [/- 2577 -/ { field := k!"cseCode", path := (.first [k!"CSE-CODE"] .nil), item := (.prim .lit) },
   /- 2578 -/ { field := k!"cseCodeFactor", path := (.first [k!"CSE-CODE-FACTOR"] .nil), item := (.prim .integer) }]

/-- `readSwRefTiming`, `parser/arxml_parser.py:4065-4070` (the `MultidimensionalTime` it makes); also 4 other methods -/
def readSwRefTiming_MultidimensionalTime : List RSlot :=
  /- 4069 -/ readMultidimensionalTime

/-- `readDataPrototype`, `parser/arxml_parser.py:5582-5584`; also `readAutosarDataType` -/
def readDataPrototype : List RSlot :=
  /- 5583 -/ readIdentifiable ++
  [/- 5584 -/ { field := k!"swDataDefProps", path := (.first [k!"SW-DATA-DEF-PROPS"] .nil), item := (.objs [(k!"SW-DATA-DEF-PROPS", k!"getSwDataDefProps_SwDataDefProps")]) }]

/-- `readAutosarDataPrototype`, `parser/arxml_parser.py:3441-3443`; also `readApplicationCompositeElementDataPrototype` -/
def readAutosarDataPrototype : List RSlot :=
  /- 3442 -/ readDataPrototype ++
  [/- 3443 -/ { field := k!"typeTRef", path := (.first [k!"TYPE-TREF"] .nil), item := (.prim .ref) }]

/-- `readApplicationArrayElement`, `parser/arxml_parser.py:5590-5600` (the `ApplicationArrayElement` it makes) -/
def readApplicationArrayElement_ApplicationArrayElement : List RSlot :=
  [/- 5595 -/ { field := k!"short_name", path := (.first [k!"SHORT-NAME"] .nil), item := .name, req := .always }] ++
  /- 5596 -/ readAutosarDataPrototype ++
  [/- 5597 -/ { field := k!"arraySizeHandling", path := (.first [k!"ARRAY-SIZE-HANDLING"] .nil), item := (.prim .lit) },
   /- 5598 -/ { field := k!"arraySizeSemantics", path := (.first [k!"ARRAY-SIZE-SEMANTICS"] .nil), item := (.prim .lit) },
   /- 5599 -/ { field := k!"indexDataTypeRef", path := (.first [k!"INDEX-DATA-TYPE-REF"] .nil), item := (.prim .ref) },
   /- 5600 -/ { field := k!"maxNumberOfElements", path := (.first [k!"MAX-NUMBER-OF-ELEMENTS"] .nil), item := (.prim .numerical) }]

/-- `readApplicationRecordElement`, `parser/arxml_parser.py:4080-4082` -/
def readApplicationRecordElement : List RSlot :=
  /- 4082 -/ readAutosarDataPrototype

/-- `readApplicationRecordDataTypeElements`, `parser/arxml_parser.py:4084-4091` (the `ApplicationRecordElement` it makes) -/
def readApplicationRecordDataTypeElements_ApplicationRecordElement : List RSlot :=
  [/- 4088 -/ { field := k!"short_name", path := (.first [k!"SHORT-NAME"] .nil), item := .name, req := .always }] ++
  /- 4089 -/ readApplicationRecordElement

/-- `readArgumentDataPrototype`, `parser/arxml_parser.py:5035-5038` -/
def readArgumentDataPrototype : List RSlot :=
  /- 5036 -/ readAutosarDataPrototype ++
  [/- 5037 -/ { field := k!"direction", path := (.first [k!"DIRECTION"] .nil), item := (.prim .lit) },
   /- 5038 -/ { field := k!"serverArgumentImplPolicy", path := (.first [k!"SERVER-ARGUMENT-IMPL-POLICY"] .nil), item := (.prim .lit) }]

/-- `readArtifactDescriptor`, `parser/arxml_parser.py:2494-2500` -/
def readArtifactDescriptor : List RSlot :=
  [/- 2498 -/ { field := k!"artifactDescriptors", path := (.all k!"ARTIFACT-DESCRIPTORS" (.all k!"AUTOSAR-ENGINEERING-OBJECT" .nil)), item := (.objs [(k!"AUTOSAR-ENGINEERING-OBJECT", k!"getAutosarEngineeringObject_AutosarEngineeringObject")]) },
   /- 2500 -/ { field := 0, path := (.all k!"ARTIFACT-DESCRIPTORS" (.all 0 .nil)), item := (.guard [k!"AUTOSAR-ENGINEERING-OBJECT"] .unsupported) }]

/-- `readSwConnector`, `parser/arxml_parser.py:4853-4855` -/
def readSwConnector : List RSlot :=
  /- 4854 -/ readIdentifiable ++
  [/- 4855 -/ { field := k!"mappingRef", path := (.first [k!"MAPPING-REF"] .nil), item := (.prim .ref) }]

/-- `readAssemblySwConnectorProviderIRef`, `parser/arxml_parser.py:4837-4843` -/
def readAssemblySwConnectorProviderIRef : List RSlot :=
  [/- 4843 -/ { field := k!"providerIRef", path := (.first [k!"PROVIDER-IREF"] .nil), item := (.objs [(k!"PROVIDER-IREF", k!"readAssemblySwConnectorProviderIRef_PPortInCompositionInstanceRef")]) }]

/-- `readAssemblySwConnectorRequesterIRef`, `parser/arxml_parser.py:4845-4851` -/
def readAssemblySwConnectorRequesterIRef : List RSlot :=
  [/- 4851 -/ { field := k!"requesterIRef", path := (.first [k!"REQUESTER-IREF"] .nil), item := (.objs [(k!"REQUESTER-IREF", k!"readAssemblySwConnectorRequesterIRef_RPortInCompositionInstanceRef")]) }]

/-- `readAssemblySwConnector`, `parser/arxml_parser.py:4857-4861` -/
def readAssemblySwConnector : List RSlot :=
  /- 4859 -/ readSwConnector ++
  /- 4860 -/ readAssemblySwConnectorProviderIRef ++
  /- 4861 -/ readAssemblySwConnectorRequesterIRef

/-- `readPPortInCompositionInstanceRef`, `parser/arxml_parser.py:4809-4821` -/
def readPPortInCompositionInstanceRef : List RSlot :=
  [/- 4810 -/ { field := k!"contextComponentRef", path := (.first [k!"CONTEXT-COMPONENT-REF"] .nil), item := (.prim .ref) },
   /- 4811 -/ { field := k!"targetPPortRef", path := (.first [k!"TARGET-P-PORT-REF"] .nil), item := (.prim .ref) }]

/-- `readAssemblySwConnectorProviderIRef`, `parser/arxml_parser.py:4837-4843` (the `PPortInCompositionInstanceRef` it makes) -/
def readAssemblySwConnectorProviderIRef_PPortInCompositionInstanceRef : List RSlot :=
  [/- 4841 -/ { field := k!"timestamp", path := .nil, item := (.attr k!"T" .raw) },
   /- 4841 -/ { field := k!"uuid", path := .nil, item := (.attr k!"UUID" .raw) }] ++
  /- 4842 -/ readPPortInCompositionInstanceRef

/-- `readRPortInCompositionInstanceRef`, `parser/arxml_parser.py:4823-4835` -/
def readRPortInCompositionInstanceRef : List RSlot :=
  [/- 4824 -/ { field := k!"contextComponentRef", path := (.first [k!"CONTEXT-COMPONENT-REF"] .nil), item := (.prim .ref) },
   /- 4825 -/ { field := k!"targetRPortRef", path := (.first [k!"TARGET-R-PORT-REF"] .nil), item := (.prim .ref) }]

end Verif.Gen.R
