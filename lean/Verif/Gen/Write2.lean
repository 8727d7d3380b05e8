import Verif.Gen.Write1
-- generated by tools/gen_codec.py; do not edit
namespace Verif.Gen.W
open Verif Verif.Model

/-- `writeARPackageElements`, `writer/arxml_writer.py:9603-9609` -/
def writeARPackageElements_ARPackage : WB :=
  /- 9605 -/ .wrap (.any [(k!"elements", [])]) k!"ELEMENTS" (
    /- 9609 -/ .each k!"elements" [] .plain [⟨[(false, [k!"ComplexDeviceDriverSwComponentType"])], [k!"ARPackage"], k!"writeComplexDeviceDriverSwComponentType_ComplexDeviceDriverSwComponentType"⟩,
      ⟨[(false, [k!"SwcImplementation"])], [k!"ARPackage", k!"ComplexDeviceDriverSwComponentType"], k!"writeSwcImplementation_SwcImplementation"⟩,
      ⟨[(false, [k!"CompositionSwComponentType"])], [k!"ARPackage", k!"ComplexDeviceDriverSwComponentType", k!"SwcImplementation"], k!"writeCompositionSwComponentType_CompositionSwComponentType"⟩,
      ⟨[(false, [k!"ApplicationPrimitiveDataType"])], [k!"ARPackage", k!"ComplexDeviceDriverSwComponentType", k!"SwcImplementation", k!"CompositionSwComponentType"], k!"writeApplicationPrimitiveDataType_ApplicationPrimitiveDataType"⟩,
      ⟨[(false, [k!"ApplicationRecordDataType"])], [k!"ARPackage", k!"ComplexDeviceDriverSwComponentType", k!"SwcImplementation", k!"CompositionSwComponentType", k!"ApplicationPrimitiveDataType"], k!"writeApplicationRecordDataType_ApplicationRecordDataType"⟩,
      ⟨[(false, [k!"SwBaseType"])], [k!"ARPackage", k!"ComplexDeviceDriverSwComponentType", k!"SwcImplementation", k!"CompositionSwComponentType", k!"ApplicationPrimitiveDataType", k!"ApplicationRecordDataType"], k!"writeSwBaseType_SwBaseType"⟩,
      ⟨[(false, [k!"CompuMethod"])], [k!"ARPackage", k!"ComplexDeviceDriverSwComponentType", k!"SwcImplementation", k!"CompositionSwComponentType", k!"ApplicationPrimitiveDataType", k!"ApplicationRecordDataType", k!"SwBaseType"], k!"writeCompuMethod_CompuMethod"⟩,
      ⟨[(false, [k!"ConstantSpecification"])], [k!"ARPackage", k!"ComplexDeviceDriverSwComponentType", k!"SwcImplementation", k!"CompositionSwComponentType", k!"ApplicationPrimitiveDataType", k!"ApplicationRecordDataType", k!"SwBaseType", k!"CompuMethod"], k!"writeConstantSpecification_ConstantSpecification"⟩,
      ⟨[(false, [k!"DataConstr"])], [k!"ARPackage", k!"ComplexDeviceDriverSwComponentType", k!"SwcImplementation", k!"CompositionSwComponentType", k!"ApplicationPrimitiveDataType", k!"ApplicationRecordDataType", k!"SwBaseType", k!"CompuMethod", k!"ConstantSpecification"], k!"writeDataConstr_DataConstr"⟩,
      ⟨[(false, [k!"EndToEndProtectionSet"])], [k!"ARPackage", k!"ComplexDeviceDriverSwComponentType", k!"SwcImplementation", k!"CompositionSwComponentType", k!"ApplicationPrimitiveDataType", k!"ApplicationRecordDataType", k!"SwBaseType", k!"CompuMethod", k!"ConstantSpecification", k!"DataConstr"], k!"writeEndToEndProtectionSet_EndToEndProtectionSet"⟩,
      ⟨[(false, [k!"SenderReceiverInterface"])], [k!"ARPackage", k!"ComplexDeviceDriverSwComponentType", k!"SwcImplementation", k!"CompositionSwComponentType", k!"ApplicationPrimitiveDataType", k!"ApplicationRecordDataType", k!"SwBaseType", k!"CompuMethod", k!"ConstantSpecification", k!"DataConstr", k!"EndToEndProtectionSet"], k!"writeSenderReceiverInterface_SenderReceiverInterface"⟩,
      ⟨[(false, [k!"Unit"])], [k!"ARPackage", k!"ComplexDeviceDriverSwComponentType", k!"SwcImplementation", k!"CompositionSwComponentType", k!"ApplicationPrimitiveDataType", k!"ApplicationRecordDataType", k!"SwBaseType", k!"CompuMethod", k!"ConstantSpecification", k!"DataConstr", k!"EndToEndProtectionSet", k!"SenderReceiverInterface"], k!"writeUnit_Unit"⟩,
      ⟨[(false, [k!"BswModuleDescription"])], [k!"ARPackage", k!"ComplexDeviceDriverSwComponentType", k!"SwcImplementation", k!"CompositionSwComponentType", k!"ApplicationPrimitiveDataType", k!"ApplicationRecordDataType", k!"SwBaseType", k!"CompuMethod", k!"ConstantSpecification", k!"DataConstr", k!"EndToEndProtectionSet", k!"SenderReceiverInterface", k!"Unit"], k!"writeBswModuleDescription_BswModuleDescription"⟩,
      ⟨[(false, [k!"BswModuleEntry"])], [k!"ARPackage", k!"ComplexDeviceDriverSwComponentType", k!"SwcImplementation", k!"CompositionSwComponentType", k!"ApplicationPrimitiveDataType", k!"ApplicationRecordDataType", k!"SwBaseType", k!"CompuMethod", k!"ConstantSpecification", k!"DataConstr", k!"EndToEndProtectionSet", k!"SenderReceiverInterface", k!"Unit", k!"BswModuleDescription"], k!"writeBswModuleEntry_BswModuleEntry"⟩,
      ⟨[(false, [k!"SwcBswMapping"])], [k!"ARPackage", k!"ComplexDeviceDriverSwComponentType", k!"SwcImplementation", k!"CompositionSwComponentType", k!"ApplicationPrimitiveDataType", k!"ApplicationRecordDataType", k!"SwBaseType", k!"CompuMethod", k!"ConstantSpecification", k!"DataConstr", k!"EndToEndProtectionSet", k!"SenderReceiverInterface", k!"Unit", k!"BswModuleDescription", k!"BswModuleEntry"], k!"writeSwcBswMapping_SwcBswMapping"⟩,
      ⟨[(false, [k!"BswImplementation"])], [k!"ARPackage", k!"ComplexDeviceDriverSwComponentType", k!"SwcImplementation", k!"CompositionSwComponentType", k!"ApplicationPrimitiveDataType", k!"ApplicationRecordDataType", k!"SwBaseType", k!"CompuMethod", k!"ConstantSpecification", k!"DataConstr", k!"EndToEndProtectionSet", k!"SenderReceiverInterface", k!"Unit", k!"BswModuleDescription", k!"BswModuleEntry", k!"SwcBswMapping"], k!"writeBswImplementation_BswImplementation"⟩,
      ⟨[(false, [k!"ImplementationDataType"])], [k!"ARPackage", k!"ComplexDeviceDriverSwComponentType", k!"SwcImplementation", k!"CompositionSwComponentType", k!"ApplicationPrimitiveDataType", k!"ApplicationRecordDataType", k!"SwBaseType", k!"CompuMethod", k!"ConstantSpecification", k!"DataConstr", k!"EndToEndProtectionSet", k!"SenderReceiverInterface", k!"Unit", k!"BswModuleDescription", k!"BswModuleEntry", k!"SwcBswMapping", k!"BswImplementation"], k!"writeImplementationDataType_ImplementationDataType"⟩,
      ⟨[(false, [k!"ClientServerInterface"])], [k!"ARPackage", k!"ComplexDeviceDriverSwComponentType", k!"SwcImplementation", k!"CompositionSwComponentType", k!"ApplicationPrimitiveDataType", k!"ApplicationRecordDataType", k!"SwBaseType", k!"CompuMethod", k!"ConstantSpecification", k!"DataConstr", k!"EndToEndProtectionSet", k!"SenderReceiverInterface", k!"Unit", k!"BswModuleDescription", k!"BswModuleEntry", k!"SwcBswMapping", k!"BswImplementation", k!"ImplementationDataType"], k!"writeClientServerInterface_ClientServerInterface"⟩,
      ⟨[(false, [k!"ApplicationSwComponentType"])], [k!"ARPackage", k!"ComplexDeviceDriverSwComponentType", k!"SwcImplementation", k!"CompositionSwComponentType", k!"ApplicationPrimitiveDataType", k!"ApplicationRecordDataType", k!"SwBaseType", k!"CompuMethod", k!"ConstantSpecification", k!"DataConstr", k!"EndToEndProtectionSet", k!"SenderReceiverInterface", k!"Unit", k!"BswModuleDescription", k!"BswModuleEntry", k!"SwcBswMapping", k!"BswImplementation", k!"ImplementationDataType", k!"ClientServerInterface"], k!"writeApplicationSwComponentType_ApplicationSwComponentType"⟩,
      ⟨[(false, [k!"EcuAbstractionSwComponentType"])], [k!"ARPackage", k!"ComplexDeviceDriverSwComponentType", k!"SwcImplementation", k!"CompositionSwComponentType", k!"ApplicationPrimitiveDataType", k!"ApplicationRecordDataType", k!"SwBaseType", k!"CompuMethod", k!"ConstantSpecification", k!"DataConstr", k!"EndToEndProtectionSet", k!"SenderReceiverInterface", k!"Unit", k!"BswModuleDescription", k!"BswModuleEntry", k!"SwcBswMapping", k!"BswImplementation", k!"ImplementationDataType", k!"ClientServerInterface", k!"ApplicationSwComponentType"], k!"writeEcuAbstractionSwComponentType_EcuAbstractionSwComponentType"⟩,
      ⟨[(false, [k!"ApplicationArrayDataType"])], [k!"ARPackage", k!"ComplexDeviceDriverSwComponentType", k!"SwcImplementation", k!"CompositionSwComponentType", k!"ApplicationPrimitiveDataType", k!"ApplicationRecordDataType", k!"SwBaseType", k!"CompuMethod", k!"ConstantSpecification", k!"DataConstr", k!"EndToEndProtectionSet", k!"SenderReceiverInterface", k!"Unit", k!"BswModuleDescription", k!"BswModuleEntry", k!"SwcBswMapping", k!"BswImplementation", k!"ImplementationDataType", k!"ClientServerInterface", k!"ApplicationSwComponentType", k!"EcuAbstractionSwComponentType"], k!"writeApplicationArrayDataType_ApplicationArrayDataType"⟩,
      ⟨[(false, [k!"SwRecordLayout"])], [k!"ARPackage", k!"ComplexDeviceDriverSwComponentType", k!"SwcImplementation", k!"CompositionSwComponentType", k!"ApplicationPrimitiveDataType", k!"ApplicationRecordDataType", k!"SwBaseType", k!"CompuMethod", k!"ConstantSpecification", k!"DataConstr", k!"EndToEndProtectionSet", k!"SenderReceiverInterface", k!"Unit", k!"BswModuleDescription", k!"BswModuleEntry", k!"SwcBswMapping", k!"BswImplementation", k!"ImplementationDataType", k!"ClientServerInterface", k!"ApplicationSwComponentType", k!"EcuAbstractionSwComponentType", k!"ApplicationArrayDataType"], k!"writeSwRecordLayout_SwRecordLayout"⟩,
      ⟨[(false, [k!"SwAddrMethod"])], [k!"ARPackage", k!"ComplexDeviceDriverSwComponentType", k!"SwcImplementation", k!"CompositionSwComponentType", k!"ApplicationPrimitiveDataType", k!"ApplicationRecordDataType", k!"SwBaseType", k!"CompuMethod", k!"ConstantSpecification", k!"DataConstr", k!"EndToEndProtectionSet", k!"SenderReceiverInterface", k!"Unit", k!"BswModuleDescription", k!"BswModuleEntry", k!"SwcBswMapping", k!"BswImplementation", k!"ImplementationDataType", k!"ClientServerInterface", k!"ApplicationSwComponentType", k!"EcuAbstractionSwComponentType", k!"ApplicationArrayDataType", k!"SwRecordLayout"], k!"writeSwAddrMethod_SwAddrMethod"⟩,
      ⟨[(false, [k!"TriggerInterface"])], [k!"ARPackage", k!"ComplexDeviceDriverSwComponentType", k!"SwcImplementation", k!"CompositionSwComponentType", k!"ApplicationPrimitiveDataType", k!"ApplicationRecordDataType", k!"SwBaseType", k!"CompuMethod", k!"ConstantSpecification", k!"DataConstr", k!"EndToEndProtectionSet", k!"SenderReceiverInterface", k!"Unit", k!"BswModuleDescription", k!"BswModuleEntry", k!"SwcBswMapping", k!"BswImplementation", k!"ImplementationDataType", k!"ClientServerInterface", k!"ApplicationSwComponentType", k!"EcuAbstractionSwComponentType", k!"ApplicationArrayDataType", k!"SwRecordLayout", k!"SwAddrMethod"], k!"writeTriggerInterface_TriggerInterface"⟩,
      ⟨[(false, [k!"ServiceSwComponentType"])], [k!"ARPackage", k!"ComplexDeviceDriverSwComponentType", k!"SwcImplementation", k!"CompositionSwComponentType", k!"ApplicationPrimitiveDataType", k!"ApplicationRecordDataType", k!"SwBaseType", k!"CompuMethod", k!"ConstantSpecification", k!"DataConstr", k!"EndToEndProtectionSet", k!"SenderReceiverInterface", k!"Unit", k!"BswModuleDescription", k!"BswModuleEntry", k!"SwcBswMapping", k!"BswImplementation", k!"ImplementationDataType", k!"ClientServerInterface", k!"ApplicationSwComponentType", k!"EcuAbstractionSwComponentType", k!"ApplicationArrayDataType", k!"SwRecordLayout", k!"SwAddrMethod", k!"TriggerInterface"], k!"writeServiceSwComponentType_ServiceSwComponentType"⟩,
      ⟨[(false, [k!"SensorActuatorSwComponentType"])], [k!"ARPackage", k!"ComplexDeviceDriverSwComponentType", k!"SwcImplementation", k!"CompositionSwComponentType", k!"ApplicationPrimitiveDataType", k!"ApplicationRecordDataType", k!"SwBaseType", k!"CompuMethod", k!"ConstantSpecification", k!"DataConstr", k!"EndToEndProtectionSet", k!"SenderReceiverInterface", k!"Unit", k!"BswModuleDescription", k!"BswModuleEntry", k!"SwcBswMapping", k!"BswImplementation", k!"ImplementationDataType", k!"ClientServerInterface", k!"ApplicationSwComponentType", k!"EcuAbstractionSwComponentType", k!"ApplicationArrayDataType", k!"SwRecordLayout", k!"SwAddrMethod", k!"TriggerInterface", k!"ServiceSwComponentType"], k!"writeSensorActuatorSwComponentType_SensorActuatorSwComponentType"⟩,
      ⟨[(false, [k!"NvBlockSwComponentType"])], [k!"ARPackage", k!"ComplexDeviceDriverSwComponentType", k!"SwcImplementation", k!"CompositionSwComponentType", k!"ApplicationPrimitiveDataType", k!"ApplicationRecordDataType", k!"SwBaseType", k!"CompuMethod", k!"ConstantSpecification", k!"DataConstr", k!"EndToEndProtectionSet", k!"SenderReceiverInterface", k!"Unit", k!"BswModuleDescription", k!"BswModuleEntry", k!"SwcBswMapping", k!"BswImplementation", k!"ImplementationDataType", k!"ClientServerInterface", k!"ApplicationSwComponentType", k!"EcuAbstractionSwComponentType", k!"ApplicationArrayDataType", k!"SwRecordLayout", k!"SwAddrMethod", k!"TriggerInterface", k!"ServiceSwComponentType", k!"SensorActuatorSwComponentType"], k!"writeNvBlockSwComponentType_NvBlockSwComponentType"⟩,
      ⟨[(false, [k!"ServiceProxySwComponentType"])], [k!"ARPackage", k!"ComplexDeviceDriverSwComponentType", k!"SwcImplementation", k!"CompositionSwComponentType", k!"ApplicationPrimitiveDataType", k!"ApplicationRecordDataType", k!"SwBaseType", k!"CompuMethod", k!"ConstantSpecification", k!"DataConstr", k!"EndToEndProtectionSet", k!"SenderReceiverInterface", k!"Unit", k!"BswModuleDescription", k!"BswModuleEntry", k!"SwcBswMapping", k!"BswImplementation", k!"ImplementationDataType", k!"ClientServerInterface", k!"ApplicationSwComponentType", k!"EcuAbstractionSwComponentType", k!"ApplicationArrayDataType", k!"SwRecordLayout", k!"SwAddrMethod", k!"TriggerInterface", k!"ServiceSwComponentType", k!"SensorActuatorSwComponentType", k!"NvBlockSwComponentType"], k!"writeServiceProxySwComponentType_ServiceProxySwComponentType"⟩,
      ⟨[(false, [k!"DataTypeMappingSet"])], [k!"ARPackage", k!"ComplexDeviceDriverSwComponentType", k!"SwcImplementation", k!"CompositionSwComponentType", k!"ApplicationPrimitiveDataType", k!"ApplicationRecordDataType", k!"SwBaseType", k!"CompuMethod", k!"ConstantSpecification", k!"DataConstr", k!"EndToEndProtectionSet", k!"SenderReceiverInterface", k!"Unit", k!"BswModuleDescription", k!"BswModuleEntry", k!"SwcBswMapping", k!"BswImplementation", k!"ImplementationDataType", k!"ClientServerInterface", k!"ApplicationSwComponentType", k!"EcuAbstractionSwComponentType", k!"ApplicationArrayDataType", k!"SwRecordLayout", k!"SwAddrMethod", k!"TriggerInterface", k!"ServiceSwComponentType", k!"SensorActuatorSwComponentType", k!"NvBlockSwComponentType", k!"ServiceProxySwComponentType"], k!"writeDataTypeMappingSet_DataTypeMappingSet"⟩,
      ⟨[(false, [k!"ModeDeclarationGroup"])], [k!"ARPackage", k!"ComplexDeviceDriverSwComponentType", k!"SwcImplementation", k!"CompositionSwComponentType", k!"ApplicationPrimitiveDataType", k!"ApplicationRecordDataType", k!"SwBaseType", k!"CompuMethod", k!"ConstantSpecification", k!"DataConstr", k!"EndToEndProtectionSet", k!"SenderReceiverInterface", k!"Unit", k!"BswModuleDescription", k!"BswModuleEntry", k!"SwcBswMapping", k!"BswImplementation", k!"ImplementationDataType", k!"ClientServerInterface", k!"ApplicationSwComponentType", k!"EcuAbstractionSwComponentType", k!"ApplicationArrayDataType", k!"SwRecordLayout", k!"SwAddrMethod", k!"TriggerInterface", k!"ServiceSwComponentType", k!"SensorActuatorSwComponentType", k!"NvBlockSwComponentType", k!"ServiceProxySwComponentType", k!"DataTypeMappingSet"], k!"writeModeDeclarationGroup_ModeDeclarationGroup"⟩,
      ⟨[(false, [k!"ModeSwitchInterface"])], [k!"ARPackage", k!"ComplexDeviceDriverSwComponentType", k!"SwcImplementation", k!"CompositionSwComponentType", k!"ApplicationPrimitiveDataType", k!"ApplicationRecordDataType", k!"SwBaseType", k!"CompuMethod", k!"ConstantSpecification", k!"DataConstr", k!"EndToEndProtectionSet", k!"SenderReceiverInterface", k!"Unit", k!"BswModuleDescription", k!"BswModuleEntry", k!"SwcBswMapping", k!"BswImplementation", k!"ImplementationDataType", k!"ClientServerInterface", k!"ApplicationSwComponentType", k!"EcuAbstractionSwComponentType", k!"ApplicationArrayDataType", k!"SwRecordLayout", k!"SwAddrMethod", k!"TriggerInterface", k!"ServiceSwComponentType", k!"SensorActuatorSwComponentType", k!"NvBlockSwComponentType", k!"ServiceProxySwComponentType", k!"DataTypeMappingSet", k!"ModeDeclarationGroup"], k!"writeModeSwitchInterface_ModeSwitchInterface"⟩,
      ⟨[(false, [k!"SwcTiming"])], [k!"ARPackage", k!"ComplexDeviceDriverSwComponentType", k!"SwcImplementation", k!"CompositionSwComponentType", k!"ApplicationPrimitiveDataType", k!"ApplicationRecordDataType", k!"SwBaseType", k!"CompuMethod", k!"ConstantSpecification", k!"DataConstr", k!"EndToEndProtectionSet", k!"SenderReceiverInterface", k!"Unit", k!"BswModuleDescription", k!"BswModuleEntry", k!"SwcBswMapping", k!"BswImplementation", k!"ImplementationDataType", k!"ClientServerInterface", k!"ApplicationSwComponentType", k!"EcuAbstractionSwComponentType", k!"ApplicationArrayDataType", k!"SwRecordLayout", k!"SwAddrMethod", k!"TriggerInterface", k!"ServiceSwComponentType", k!"SensorActuatorSwComponentType", k!"NvBlockSwComponentType", k!"ServiceProxySwComponentType", k!"DataTypeMappingSet", k!"ModeDeclarationGroup", k!"ModeSwitchInterface"], k!"writeSwcTiming_SwcTiming"⟩,
      ⟨[(false, [k!"LinUnconditionalFrame"])], [k!"ARPackage", k!"ComplexDeviceDriverSwComponentType", k!"SwcImplementation", k!"CompositionSwComponentType", k!"ApplicationPrimitiveDataType", k!"ApplicationRecordDataType", k!"SwBaseType", k!"CompuMethod", k!"ConstantSpecification", k!"DataConstr", k!"EndToEndProtectionSet", k!"SenderReceiverInterface", k!"Unit", k!"BswModuleDescription", k!"BswModuleEntry", k!"SwcBswMapping", k!"BswImplementation", k!"ImplementationDataType", k!"ClientServerInterface", k!"ApplicationSwComponentType", k!"EcuAbstractionSwComponentType", k!"ApplicationArrayDataType", k!"SwRecordLayout", k!"SwAddrMethod", k!"TriggerInterface", k!"ServiceSwComponentType", k!"SensorActuatorSwComponentType", k!"NvBlockSwComponentType", k!"ServiceProxySwComponentType", k!"DataTypeMappingSet", k!"ModeDeclarationGroup", k!"ModeSwitchInterface", k!"SwcTiming"], k!"writeLinUnconditionalFrame_LinUnconditionalFrame"⟩,
      ⟨[(false, [k!"NmConfig"])], [k!"ARPackage", k!"ComplexDeviceDriverSwComponentType", k!"SwcImplementation", k!"CompositionSwComponentType", k!"ApplicationPrimitiveDataType", k!"ApplicationRecordDataType", k!"SwBaseType", k!"CompuMethod", k!"ConstantSpecification", k!"DataConstr", k!"EndToEndProtectionSet", k!"SenderReceiverInterface", k!"Unit", k!"BswModuleDescription", k!"BswModuleEntry", k!"SwcBswMapping", k!"BswImplementation", k!"ImplementationDataType", k!"ClientServerInterface", k!"ApplicationSwComponentType", k!"EcuAbstractionSwComponentType", k!"ApplicationArrayDataType", k!"SwRecordLayout", k!"SwAddrMethod", k!"TriggerInterface", k!"ServiceSwComponentType", k!"SensorActuatorSwComponentType", k!"NvBlockSwComponentType", k!"ServiceProxySwComponentType", k!"DataTypeMappingSet", k!"ModeDeclarationGroup", k!"ModeSwitchInterface", k!"SwcTiming", k!"LinUnconditionalFrame"], k!"writeNmConfig_NmConfig"⟩,
      ⟨[(false, [k!"NmPdu"])], [k!"ARPackage", k!"ComplexDeviceDriverSwComponentType", k!"SwcImplementation", k!"CompositionSwComponentType", k!"ApplicationPrimitiveDataType", k!"ApplicationRecordDataType", k!"SwBaseType", k!"CompuMethod", k!"ConstantSpecification", k!"DataConstr", k!"EndToEndProtectionSet", k!"SenderReceiverInterface", k!"Unit", k!"BswModuleDescription", k!"BswModuleEntry", k!"SwcBswMapping", k!"BswImplementation", k!"ImplementationDataType", k!"ClientServerInterface", k!"ApplicationSwComponentType", k!"EcuAbstractionSwComponentType", k!"ApplicationArrayDataType", k!"SwRecordLayout", k!"SwAddrMethod", k!"TriggerInterface", k!"ServiceSwComponentType", k!"SensorActuatorSwComponentType", k!"NvBlockSwComponentType", k!"ServiceProxySwComponentType", k!"DataTypeMappingSet", k!"ModeDeclarationGroup", k!"ModeSwitchInterface", k!"SwcTiming", k!"LinUnconditionalFrame", k!"NmConfig"], k!"writeNmPdu_NmPdu"⟩,
      ⟨[(false, [k!"NPdu"])], [k!"ARPackage", k!"ComplexDeviceDriverSwComponentType", k!"SwcImplementation", k!"CompositionSwComponentType", k!"ApplicationPrimitiveDataType", k!"ApplicationRecordDataType", k!"SwBaseType", k!"CompuMethod", k!"ConstantSpecification", k!"DataConstr", k!"EndToEndProtectionSet", k!"SenderReceiverInterface", k!"Unit", k!"BswModuleDescription", k!"BswModuleEntry", k!"SwcBswMapping", k!"BswImplementation", k!"ImplementationDataType", k!"ClientServerInterface", k!"ApplicationSwComponentType", k!"EcuAbstractionSwComponentType", k!"ApplicationArrayDataType", k!"SwRecordLayout", k!"SwAddrMethod", k!"TriggerInterface", k!"ServiceSwComponentType", k!"SensorActuatorSwComponentType", k!"NvBlockSwComponentType", k!"ServiceProxySwComponentType", k!"DataTypeMappingSet", k!"ModeDeclarationGroup", k!"ModeSwitchInterface", k!"SwcTiming", k!"LinUnconditionalFrame", k!"NmConfig", k!"NmPdu"], k!"writeNPdu_NPdu"⟩,
      ⟨[(false, [k!"DcmIPdu"])], [k!"ARPackage", k!"ComplexDeviceDriverSwComponentType", k!"SwcImplementation", k!"CompositionSwComponentType", k!"ApplicationPrimitiveDataType", k!"ApplicationRecordDataType", k!"SwBaseType", k!"CompuMethod", k!"ConstantSpecification", k!"DataConstr", k!"EndToEndProtectionSet", k!"SenderReceiverInterface", k!"Unit", k!"BswModuleDescription", k!"BswModuleEntry", k!"SwcBswMapping", k!"BswImplementation", k!"ImplementationDataType", k!"ClientServerInterface", k!"ApplicationSwComponentType", k!"EcuAbstractionSwComponentType", k!"ApplicationArrayDataType", k!"SwRecordLayout", k!"SwAddrMethod", k!"TriggerInterface", k!"ServiceSwComponentType", k!"SensorActuatorSwComponentType", k!"NvBlockSwComponentType", k!"ServiceProxySwComponentType", k!"DataTypeMappingSet", k!"ModeDeclarationGroup", k!"ModeSwitchInterface", k!"SwcTiming", k!"LinUnconditionalFrame", k!"NmConfig", k!"NmPdu", k!"NPdu"], k!"writeDcmIPdu_DcmIPdu"⟩,
      ⟨[(false, [k!"SecuredIPdu"])], [k!"ARPackage", k!"ComplexDeviceDriverSwComponentType", k!"SwcImplementation", k!"CompositionSwComponentType", k!"ApplicationPrimitiveDataType", k!"ApplicationRecordDataType", k!"SwBaseType", k!"CompuMethod", k!"ConstantSpecification", k!"DataConstr", k!"EndToEndProtectionSet", k!"SenderReceiverInterface", k!"Unit", k!"BswModuleDescription", k!"BswModuleEntry", k!"SwcBswMapping", k!"BswImplementation", k!"ImplementationDataType", k!"ClientServerInterface", k!"ApplicationSwComponentType", k!"EcuAbstractionSwComponentType", k!"ApplicationArrayDataType", k!"SwRecordLayout", k!"SwAddrMethod", k!"TriggerInterface", k!"ServiceSwComponentType", k!"SensorActuatorSwComponentType", k!"NvBlockSwComponentType", k!"ServiceProxySwComponentType", k!"DataTypeMappingSet", k!"ModeDeclarationGroup", k!"ModeSwitchInterface", k!"SwcTiming", k!"LinUnconditionalFrame", k!"NmConfig", k!"NmPdu", k!"NPdu", k!"DcmIPdu"], k!"writeSecuredIPdu_SecuredIPdu"⟩,
      ⟨[(false, [k!"CanTpConfig"])], [k!"ARPackage", k!"ComplexDeviceDriverSwComponentType", k!"SwcImplementation", k!"CompositionSwComponentType", k!"ApplicationPrimitiveDataType", k!"ApplicationRecordDataType", k!"SwBaseType", k!"CompuMethod", k!"ConstantSpecification", k!"DataConstr", k!"EndToEndProtectionSet", k!"SenderReceiverInterface", k!"Unit", k!"BswModuleDescription", k!"BswModuleEntry", k!"SwcBswMapping", k!"BswImplementation", k!"ImplementationDataType", k!"ClientServerInterface", k!"ApplicationSwComponentType", k!"EcuAbstractionSwComponentType", k!"ApplicationArrayDataType", k!"SwRecordLayout", k!"SwAddrMethod", k!"TriggerInterface", k!"ServiceSwComponentType", k!"SensorActuatorSwComponentType", k!"NvBlockSwComponentType", k!"ServiceProxySwComponentType", k!"DataTypeMappingSet", k!"ModeDeclarationGroup", k!"ModeSwitchInterface", k!"SwcTiming", k!"LinUnconditionalFrame", k!"NmConfig", k!"NmPdu", k!"NPdu", k!"DcmIPdu", k!"SecuredIPdu"], k!"writeCanTpConfig_CanTpConfig"⟩,
      ⟨[(false, [k!"LinTpConfig"])], [k!"ARPackage", k!"ComplexDeviceDriverSwComponentType", k!"SwcImplementation", k!"CompositionSwComponentType", k!"ApplicationPrimitiveDataType", k!"ApplicationRecordDataType", k!"SwBaseType", k!"CompuMethod", k!"ConstantSpecification", k!"DataConstr", k!"EndToEndProtectionSet", k!"SenderReceiverInterface", k!"Unit", k!"BswModuleDescription", k!"BswModuleEntry", k!"SwcBswMapping", k!"BswImplementation", k!"ImplementationDataType", k!"ClientServerInterface", k!"ApplicationSwComponentType", k!"EcuAbstractionSwComponentType", k!"ApplicationArrayDataType", k!"SwRecordLayout", k!"SwAddrMethod", k!"TriggerInterface", k!"ServiceSwComponentType", k!"SensorActuatorSwComponentType", k!"NvBlockSwComponentType", k!"ServiceProxySwComponentType", k!"DataTypeMappingSet", k!"ModeDeclarationGroup", k!"ModeSwitchInterface", k!"SwcTiming", k!"LinUnconditionalFrame", k!"NmConfig", k!"NmPdu", k!"NPdu", k!"DcmIPdu", k!"SecuredIPdu", k!"CanTpConfig"], k!"writeLinTpConfig_LinTpConfig"⟩,
      ⟨[(false, [k!"LinCluster"])], [k!"ARPackage", k!"ComplexDeviceDriverSwComponentType", k!"SwcImplementation", k!"CompositionSwComponentType", k!"ApplicationPrimitiveDataType", k!"ApplicationRecordDataType", k!"SwBaseType", k!"CompuMethod", k!"ConstantSpecification", k!"DataConstr", k!"EndToEndProtectionSet", k!"SenderReceiverInterface", k!"Unit", k!"BswModuleDescription", k!"BswModuleEntry", k!"SwcBswMapping", k!"BswImplementation", k!"ImplementationDataType", k!"ClientServerInterface", k!"ApplicationSwComponentType", k!"EcuAbstractionSwComponentType", k!"ApplicationArrayDataType", k!"SwRecordLayout", k!"SwAddrMethod", k!"TriggerInterface", k!"ServiceSwComponentType", k!"SensorActuatorSwComponentType", k!"NvBlockSwComponentType", k!"ServiceProxySwComponentType", k!"DataTypeMappingSet", k!"ModeDeclarationGroup", k!"ModeSwitchInterface", k!"SwcTiming", k!"LinUnconditionalFrame", k!"NmConfig", k!"NmPdu", k!"NPdu", k!"DcmIPdu", k!"SecuredIPdu", k!"CanTpConfig", k!"LinTpConfig"], k!"writeLinCluster_LinCluster"⟩,
      ⟨[(false, [k!"CanCluster"])], [k!"ARPackage", k!"ComplexDeviceDriverSwComponentType", k!"SwcImplementation", k!"CompositionSwComponentType", k!"ApplicationPrimitiveDataType", k!"ApplicationRecordDataType", k!"SwBaseType", k!"CompuMethod", k!"ConstantSpecification", k!"DataConstr", k!"EndToEndProtectionSet", k!"SenderReceiverInterface", k!"Unit", k!"BswModuleDescription", k!"BswModuleEntry", k!"SwcBswMapping", k!"BswImplementation", k!"ImplementationDataType", k!"ClientServerInterface", k!"ApplicationSwComponentType", k!"EcuAbstractionSwComponentType", k!"ApplicationArrayDataType", k!"SwRecordLayout", k!"SwAddrMethod", k!"TriggerInterface", k!"ServiceSwComponentType", k!"SensorActuatorSwComponentType", k!"NvBlockSwComponentType", k!"ServiceProxySwComponentType", k!"DataTypeMappingSet", k!"ModeDeclarationGroup", k!"ModeSwitchInterface", k!"SwcTiming", k!"LinUnconditionalFrame", k!"NmConfig", k!"NmPdu", k!"NPdu", k!"DcmIPdu", k!"SecuredIPdu", k!"CanTpConfig", k!"LinTpConfig", k!"LinCluster"], k!"writeCanCluster_CanCluster"⟩,
      ⟨[(false, [k!"CanFrame"])], [k!"ARPackage", k!"ComplexDeviceDriverSwComponentType", k!"SwcImplementation", k!"CompositionSwComponentType", k!"ApplicationPrimitiveDataType", k!"ApplicationRecordDataType", k!"SwBaseType", k!"CompuMethod", k!"ConstantSpecification", k!"DataConstr", k!"EndToEndProtectionSet", k!"SenderReceiverInterface", k!"Unit", k!"BswModuleDescription", k!"BswModuleEntry", k!"SwcBswMapping", k!"BswImplementation", k!"ImplementationDataType", k!"ClientServerInterface", k!"ApplicationSwComponentType", k!"EcuAbstractionSwComponentType", k!"ApplicationArrayDataType", k!"SwRecordLayout", k!"SwAddrMethod", k!"TriggerInterface", k!"ServiceSwComponentType", k!"SensorActuatorSwComponentType", k!"NvBlockSwComponentType", k!"ServiceProxySwComponentType", k!"DataTypeMappingSet", k!"ModeDeclarationGroup", k!"ModeSwitchInterface", k!"SwcTiming", k!"LinUnconditionalFrame", k!"NmConfig", k!"NmPdu", k!"NPdu", k!"DcmIPdu", k!"SecuredIPdu", k!"CanTpConfig", k!"LinTpConfig", k!"LinCluster", k!"CanCluster"], k!"writeCanFrame_CanFrame"⟩,
      ⟨[(false, [k!"Gateway"])], [k!"ARPackage", k!"ComplexDeviceDriverSwComponentType", k!"SwcImplementation", k!"CompositionSwComponentType", k!"ApplicationPrimitiveDataType", k!"ApplicationRecordDataType", k!"SwBaseType", k!"CompuMethod", k!"ConstantSpecification", k!"DataConstr", k!"EndToEndProtectionSet", k!"SenderReceiverInterface", k!"Unit", k!"BswModuleDescription", k!"BswModuleEntry", k!"SwcBswMapping", k!"BswImplementation", k!"ImplementationDataType", k!"ClientServerInterface", k!"ApplicationSwComponentType", k!"EcuAbstractionSwComponentType", k!"ApplicationArrayDataType", k!"SwRecordLayout", k!"SwAddrMethod", k!"TriggerInterface", k!"ServiceSwComponentType", k!"SensorActuatorSwComponentType", k!"NvBlockSwComponentType", k!"ServiceProxySwComponentType", k!"DataTypeMappingSet", k!"ModeDeclarationGroup", k!"ModeSwitchInterface", k!"SwcTiming", k!"LinUnconditionalFrame", k!"NmConfig", k!"NmPdu", k!"NPdu", k!"DcmIPdu", k!"SecuredIPdu", k!"CanTpConfig", k!"LinTpConfig", k!"LinCluster", k!"CanCluster", k!"CanFrame"], k!"writeGateway_Gateway"⟩,
      ⟨[(false, [k!"ISignal"])], [k!"ARPackage", k!"ComplexDeviceDriverSwComponentType", k!"SwcImplementation", k!"CompositionSwComponentType", k!"ApplicationPrimitiveDataType", k!"ApplicationRecordDataType", k!"SwBaseType", k!"CompuMethod", k!"ConstantSpecification", k!"DataConstr", k!"EndToEndProtectionSet", k!"SenderReceiverInterface", k!"Unit", k!"BswModuleDescription", k!"BswModuleEntry", k!"SwcBswMapping", k!"BswImplementation", k!"ImplementationDataType", k!"ClientServerInterface", k!"ApplicationSwComponentType", k!"EcuAbstractionSwComponentType", k!"ApplicationArrayDataType", k!"SwRecordLayout", k!"SwAddrMethod", k!"TriggerInterface", k!"ServiceSwComponentType", k!"SensorActuatorSwComponentType", k!"NvBlockSwComponentType", k!"ServiceProxySwComponentType", k!"DataTypeMappingSet", k!"ModeDeclarationGroup", k!"ModeSwitchInterface", k!"SwcTiming", k!"LinUnconditionalFrame", k!"NmConfig", k!"NmPdu", k!"NPdu", k!"DcmIPdu", k!"SecuredIPdu", k!"CanTpConfig", k!"LinTpConfig", k!"LinCluster", k!"CanCluster", k!"CanFrame", k!"Gateway"], k!"writeISignal_ISignal"⟩,
      ⟨[(false, [k!"System"])], [k!"ARPackage", k!"ComplexDeviceDriverSwComponentType", k!"SwcImplementation", k!"CompositionSwComponentType", k!"ApplicationPrimitiveDataType", k!"ApplicationRecordDataType", k!"SwBaseType", k!"CompuMethod", k!"ConstantSpecification", k!"DataConstr", k!"EndToEndProtectionSet", k!"SenderReceiverInterface", k!"Unit", k!"BswModuleDescription", k!"BswModuleEntry", k!"SwcBswMapping", k!"BswImplementation", k!"ImplementationDataType", k!"ClientServerInterface", k!"ApplicationSwComponentType", k!"EcuAbstractionSwComponentType", k!"ApplicationArrayDataType", k!"SwRecordLayout", k!"SwAddrMethod", k!"TriggerInterface", k!"ServiceSwComponentType", k!"SensorActuatorSwComponentType", k!"NvBlockSwComponentType", k!"ServiceProxySwComponentType", k!"DataTypeMappingSet", k!"ModeDeclarationGroup", k!"ModeSwitchInterface", k!"SwcTiming", k!"LinUnconditionalFrame", k!"NmConfig", k!"NmPdu", k!"NPdu", k!"DcmIPdu", k!"SecuredIPdu", k!"CanTpConfig", k!"LinTpConfig", k!"LinCluster", k!"CanCluster", k!"CanFrame", k!"Gateway", k!"ISignal"], k!"writeSystem_System"⟩,
      ⟨[(false, [k!"EcuInstance"])], [k!"ARPackage", k!"ComplexDeviceDriverSwComponentType", k!"SwcImplementation", k!"CompositionSwComponentType", k!"ApplicationPrimitiveDataType", k!"ApplicationRecordDataType", k!"SwBaseType", k!"CompuMethod", k!"ConstantSpecification", k!"DataConstr", k!"EndToEndProtectionSet", k!"SenderReceiverInterface", k!"Unit", k!"BswModuleDescription", k!"BswModuleEntry", k!"SwcBswMapping", k!"BswImplementation", k!"ImplementationDataType", k!"ClientServerInterface", k!"ApplicationSwComponentType", k!"EcuAbstractionSwComponentType", k!"ApplicationArrayDataType", k!"SwRecordLayout", k!"SwAddrMethod", k!"TriggerInterface", k!"ServiceSwComponentType", k!"SensorActuatorSwComponentType", k!"NvBlockSwComponentType", k!"ServiceProxySwComponentType", k!"DataTypeMappingSet", k!"ModeDeclarationGroup", k!"ModeSwitchInterface", k!"SwcTiming", k!"LinUnconditionalFrame", k!"NmConfig", k!"NmPdu", k!"NPdu", k!"DcmIPdu", k!"SecuredIPdu", k!"CanTpConfig", k!"LinTpConfig", k!"LinCluster", k!"CanCluster", k!"CanFrame", k!"Gateway", k!"ISignal", k!"System"], k!"writeEcuInstance_EcuInstance"⟩,
      ⟨[(false, [k!"ISignalIPdu"])], [k!"ARPackage", k!"ComplexDeviceDriverSwComponentType", k!"SwcImplementation", k!"CompositionSwComponentType", k!"ApplicationPrimitiveDataType", k!"ApplicationRecordDataType", k!"SwBaseType", k!"CompuMethod", k!"ConstantSpecification", k!"DataConstr", k!"EndToEndProtectionSet", k!"SenderReceiverInterface", k!"Unit", k!"BswModuleDescription", k!"BswModuleEntry", k!"SwcBswMapping", k!"BswImplementation", k!"ImplementationDataType", k!"ClientServerInterface", k!"ApplicationSwComponentType", k!"EcuAbstractionSwComponentType", k!"ApplicationArrayDataType", k!"SwRecordLayout", k!"SwAddrMethod", k!"TriggerInterface", k!"ServiceSwComponentType", k!"SensorActuatorSwComponentType", k!"NvBlockSwComponentType", k!"ServiceProxySwComponentType", k!"DataTypeMappingSet", k!"ModeDeclarationGroup", k!"ModeSwitchInterface", k!"SwcTiming", k!"LinUnconditionalFrame", k!"NmConfig", k!"NmPdu", k!"NPdu", k!"DcmIPdu", k!"SecuredIPdu", k!"CanTpConfig", k!"LinTpConfig", k!"LinCluster", k!"CanCluster", k!"CanFrame", k!"Gateway", k!"ISignal", k!"System", k!"EcuInstance"], k!"writeISignalIPdu_ISignalIPdu"⟩,
      ⟨[(false, [k!"SystemSignal"])], [k!"ARPackage", k!"ComplexDeviceDriverSwComponentType", k!"SwcImplementation", k!"CompositionSwComponentType", k!"ApplicationPrimitiveDataType", k!"ApplicationRecordDataType", k!"SwBaseType", k!"CompuMethod", k!"ConstantSpecification", k!"DataConstr", k!"EndToEndProtectionSet", k!"SenderReceiverInterface", k!"Unit", k!"BswModuleDescription", k!"BswModuleEntry", k!"SwcBswMapping", k!"BswImplementation", k!"ImplementationDataType", k!"ClientServerInterface", k!"ApplicationSwComponentType", k!"EcuAbstractionSwComponentType", k!"ApplicationArrayDataType", k!"SwRecordLayout", k!"SwAddrMethod", k!"TriggerInterface", k!"ServiceSwComponentType", k!"SensorActuatorSwComponentType", k!"NvBlockSwComponentType", k!"ServiceProxySwComponentType", k!"DataTypeMappingSet", k!"ModeDeclarationGroup", k!"ModeSwitchInterface", k!"SwcTiming", k!"LinUnconditionalFrame", k!"NmConfig", k!"NmPdu", k!"NPdu", k!"DcmIPdu", k!"SecuredIPdu", k!"CanTpConfig", k!"LinTpConfig", k!"LinCluster", k!"CanCluster", k!"CanFrame", k!"Gateway", k!"ISignal", k!"System", k!"EcuInstance", k!"ISignalIPdu"], k!"writeSystemSignal_SystemSignal"⟩,
      ⟨[(false, [k!"SignalServiceTranslationPropsSet"])], [k!"ARPackage", k!"ComplexDeviceDriverSwComponentType", k!"SwcImplementation", k!"CompositionSwComponentType", k!"ApplicationPrimitiveDataType", k!"ApplicationRecordDataType", k!"SwBaseType", k!"CompuMethod", k!"ConstantSpecification", k!"DataConstr", k!"EndToEndProtectionSet", k!"SenderReceiverInterface", k!"Unit", k!"BswModuleDescription", k!"BswModuleEntry", k!"SwcBswMapping", k!"BswImplementation", k!"ImplementationDataType", k!"ClientServerInterface", k!"ApplicationSwComponentType", k!"EcuAbstractionSwComponentType", k!"ApplicationArrayDataType", k!"SwRecordLayout", k!"SwAddrMethod", k!"TriggerInterface", k!"ServiceSwComponentType", k!"SensorActuatorSwComponentType", k!"NvBlockSwComponentType", k!"ServiceProxySwComponentType", k!"DataTypeMappingSet", k!"ModeDeclarationGroup", k!"ModeSwitchInterface", k!"SwcTiming", k!"LinUnconditionalFrame", k!"NmConfig", k!"NmPdu", k!"NPdu", k!"DcmIPdu", k!"SecuredIPdu", k!"CanTpConfig", k!"LinTpConfig", k!"LinCluster", k!"CanCluster", k!"CanFrame", k!"Gateway", k!"ISignal", k!"System", k!"EcuInstance", k!"ISignalIPdu", k!"SystemSignal"], k!"writeSignalServiceTranslationPropsSet_SignalServiceTranslationPropsSet"⟩,
      ⟨[(false, [k!"ParameterInterface"])], [k!"ARPackage", k!"ComplexDeviceDriverSwComponentType", k!"SwcImplementation", k!"CompositionSwComponentType", k!"ApplicationPrimitiveDataType", k!"ApplicationRecordDataType", k!"SwBaseType", k!"CompuMethod", k!"ConstantSpecification", k!"DataConstr", k!"EndToEndProtectionSet", k!"SenderReceiverInterface", k!"Unit", k!"BswModuleDescription", k!"BswModuleEntry", k!"SwcBswMapping", k!"BswImplementation", k!"ImplementationDataType", k!"ClientServerInterface", k!"ApplicationSwComponentType", k!"EcuAbstractionSwComponentType", k!"ApplicationArrayDataType", k!"SwRecordLayout", k!"SwAddrMethod", k!"TriggerInterface", k!"ServiceSwComponentType", k!"SensorActuatorSwComponentType", k!"NvBlockSwComponentType", k!"ServiceProxySwComponentType", k!"DataTypeMappingSet", k!"ModeDeclarationGroup", k!"ModeSwitchInterface", k!"SwcTiming", k!"LinUnconditionalFrame", k!"NmConfig", k!"NmPdu", k!"NPdu", k!"DcmIPdu", k!"SecuredIPdu", k!"CanTpConfig", k!"LinTpConfig", k!"LinCluster", k!"CanCluster", k!"CanFrame", k!"Gateway", k!"ISignal", k!"System", k!"EcuInstance", k!"ISignalIPdu", k!"SystemSignal", k!"SignalServiceTranslationPropsSet"], k!"writeParameterInterface_ParameterInterface"⟩,
      ⟨[(false, [k!"NvDataInterface"])], [k!"ARPackage", k!"ComplexDeviceDriverSwComponentType", k!"SwcImplementation", k!"CompositionSwComponentType", k!"ApplicationPrimitiveDataType", k!"ApplicationRecordDataType", k!"SwBaseType", k!"CompuMethod", k!"ConstantSpecification", k!"DataConstr", k!"EndToEndProtectionSet", k!"SenderReceiverInterface", k!"Unit", k!"BswModuleDescription", k!"BswModuleEntry", k!"SwcBswMapping", k!"BswImplementation", k!"ImplementationDataType", k!"ClientServerInterface", k!"ApplicationSwComponentType", k!"EcuAbstractionSwComponentType", k!"ApplicationArrayDataType", k!"SwRecordLayout", k!"SwAddrMethod", k!"TriggerInterface", k!"ServiceSwComponentType", k!"SensorActuatorSwComponentType", k!"NvBlockSwComponentType", k!"ServiceProxySwComponentType", k!"DataTypeMappingSet", k!"ModeDeclarationGroup", k!"ModeSwitchInterface", k!"SwcTiming", k!"LinUnconditionalFrame", k!"NmConfig", k!"NmPdu", k!"NPdu", k!"DcmIPdu", k!"SecuredIPdu", k!"CanTpConfig", k!"LinTpConfig", k!"LinCluster", k!"CanCluster", k!"CanFrame", k!"Gateway", k!"ISignal", k!"System", k!"EcuInstance", k!"ISignalIPdu", k!"SystemSignal", k!"SignalServiceTranslationPropsSet", k!"ParameterInterface"], k!"writeNvDataInterface_NvDataInterface"⟩,
      ⟨[(false, [k!"GenericEthernetFrame"])], [k!"ARPackage", k!"ComplexDeviceDriverSwComponentType", k!"SwcImplementation", k!"CompositionSwComponentType", k!"ApplicationPrimitiveDataType", k!"ApplicationRecordDataType", k!"SwBaseType", k!"CompuMethod", k!"ConstantSpecification", k!"DataConstr", k!"EndToEndProtectionSet", k!"SenderReceiverInterface", k!"Unit", k!"BswModuleDescription", k!"BswModuleEntry", k!"SwcBswMapping", k!"BswImplementation", k!"ImplementationDataType", k!"ClientServerInterface", k!"ApplicationSwComponentType", k!"EcuAbstractionSwComponentType", k!"ApplicationArrayDataType", k!"SwRecordLayout", k!"SwAddrMethod", k!"TriggerInterface", k!"ServiceSwComponentType", k!"SensorActuatorSwComponentType", k!"NvBlockSwComponentType", k!"ServiceProxySwComponentType", k!"DataTypeMappingSet", k!"ModeDeclarationGroup", k!"ModeSwitchInterface", k!"SwcTiming", k!"LinUnconditionalFrame", k!"NmConfig", k!"NmPdu", k!"NPdu", k!"DcmIPdu", k!"SecuredIPdu", k!"CanTpConfig", k!"LinTpConfig", k!"LinCluster", k!"CanCluster", k!"CanFrame", k!"Gateway", k!"ISignal", k!"System", k!"EcuInstance", k!"ISignalIPdu", k!"SystemSignal", k!"SignalServiceTranslationPropsSet", k!"ParameterInterface", k!"NvDataInterface"], k!"writeGenericEthernetFrame_GenericEthernetFrame"⟩,
      ⟨[(false, [k!"LifeCycleInfoSet"])], [k!"ARPackage", k!"ComplexDeviceDriverSwComponentType", k!"SwcImplementation", k!"CompositionSwComponentType", k!"ApplicationPrimitiveDataType", k!"ApplicationRecordDataType", k!"SwBaseType", k!"CompuMethod", k!"ConstantSpecification", k!"DataConstr", k!"EndToEndProtectionSet", k!"SenderReceiverInterface", k!"Unit", k!"BswModuleDescription", k!"BswModuleEntry", k!"SwcBswMapping", k!"BswImplementation", k!"ImplementationDataType", k!"ClientServerInterface", k!"ApplicationSwComponentType", k!"EcuAbstractionSwComponentType", k!"ApplicationArrayDataType", k!"SwRecordLayout", k!"SwAddrMethod", k!"TriggerInterface", k!"ServiceSwComponentType", k!"SensorActuatorSwComponentType", k!"NvBlockSwComponentType", k!"ServiceProxySwComponentType", k!"DataTypeMappingSet", k!"ModeDeclarationGroup", k!"ModeSwitchInterface", k!"SwcTiming", k!"LinUnconditionalFrame", k!"NmConfig", k!"NmPdu", k!"NPdu", k!"DcmIPdu", k!"SecuredIPdu", k!"CanTpConfig", k!"LinTpConfig", k!"LinCluster", k!"CanCluster", k!"CanFrame", k!"Gateway", k!"ISignal", k!"System", k!"EcuInstance", k!"ISignalIPdu", k!"SystemSignal", k!"SignalServiceTranslationPropsSet", k!"ParameterInterface", k!"NvDataInterface", k!"GenericEthernetFrame"], k!"writeLifeCycleInfoSet_LifeCycleInfoSet"⟩,
      ⟨[(false, [k!"PhysicalDimension"])], [k!"ARPackage", k!"ComplexDeviceDriverSwComponentType", k!"SwcImplementation", k!"CompositionSwComponentType", k!"ApplicationPrimitiveDataType", k!"ApplicationRecordDataType", k!"SwBaseType", k!"CompuMethod", k!"ConstantSpecification", k!"DataConstr", k!"EndToEndProtectionSet", k!"SenderReceiverInterface", k!"Unit", k!"BswModuleDescription", k!"BswModuleEntry", k!"SwcBswMapping", k!"BswImplementation", k!"ImplementationDataType", k!"ClientServerInterface", k!"ApplicationSwComponentType", k!"EcuAbstractionSwComponentType", k!"ApplicationArrayDataType", k!"SwRecordLayout", k!"SwAddrMethod", k!"TriggerInterface", k!"ServiceSwComponentType", k!"SensorActuatorSwComponentType", k!"NvBlockSwComponentType", k!"ServiceProxySwComponentType", k!"DataTypeMappingSet", k!"ModeDeclarationGroup", k!"ModeSwitchInterface", k!"SwcTiming", k!"LinUnconditionalFrame", k!"NmConfig", k!"NmPdu", k!"NPdu", k!"DcmIPdu", k!"SecuredIPdu", k!"CanTpConfig", k!"LinTpConfig", k!"LinCluster", k!"CanCluster", k!"CanFrame", k!"Gateway", k!"ISignal", k!"System", k!"EcuInstance", k!"ISignalIPdu", k!"SystemSignal", k!"SignalServiceTranslationPropsSet", k!"ParameterInterface", k!"NvDataInterface", k!"GenericEthernetFrame", k!"LifeCycleInfoSet"], k!"writePhysicalDimension_PhysicalDimension"⟩,
      ⟨[(false, [k!"FlatMap"])], [k!"ARPackage", k!"ComplexDeviceDriverSwComponentType", k!"SwcImplementation", k!"CompositionSwComponentType", k!"ApplicationPrimitiveDataType", k!"ApplicationRecordDataType", k!"SwBaseType", k!"CompuMethod", k!"ConstantSpecification", k!"DataConstr", k!"EndToEndProtectionSet", k!"SenderReceiverInterface", k!"Unit", k!"BswModuleDescription", k!"BswModuleEntry", k!"SwcBswMapping", k!"BswImplementation", k!"ImplementationDataType", k!"ClientServerInterface", k!"ApplicationSwComponentType", k!"EcuAbstractionSwComponentType", k!"ApplicationArrayDataType", k!"SwRecordLayout", k!"SwAddrMethod", k!"TriggerInterface", k!"ServiceSwComponentType", k!"SensorActuatorSwComponentType", k!"NvBlockSwComponentType", k!"ServiceProxySwComponentType", k!"DataTypeMappingSet", k!"ModeDeclarationGroup", k!"ModeSwitchInterface", k!"SwcTiming", k!"LinUnconditionalFrame", k!"NmConfig", k!"NmPdu", k!"NPdu", k!"DcmIPdu", k!"SecuredIPdu", k!"CanTpConfig", k!"LinTpConfig", k!"LinCluster", k!"CanCluster", k!"CanFrame", k!"Gateway", k!"ISignal", k!"System", k!"EcuInstance", k!"ISignalIPdu", k!"SystemSignal", k!"SignalServiceTranslationPropsSet", k!"ParameterInterface", k!"NvDataInterface", k!"GenericEthernetFrame", k!"LifeCycleInfoSet", k!"PhysicalDimension"], k!"writeFlatMap_FlatMap"⟩,
      ⟨[(false, [k!"PortInterfaceMappingSet"])], [k!"ARPackage", k!"ComplexDeviceDriverSwComponentType", k!"SwcImplementation", k!"CompositionSwComponentType", k!"ApplicationPrimitiveDataType", k!"ApplicationRecordDataType", k!"SwBaseType", k!"CompuMethod", k!"ConstantSpecification", k!"DataConstr", k!"EndToEndProtectionSet", k!"SenderReceiverInterface", k!"Unit", k!"BswModuleDescription", k!"BswModuleEntry", k!"SwcBswMapping", k!"BswImplementation", k!"ImplementationDataType", k!"ClientServerInterface", k!"ApplicationSwComponentType", k!"EcuAbstractionSwComponentType", k!"ApplicationArrayDataType", k!"SwRecordLayout", k!"SwAddrMethod", k!"TriggerInterface", k!"ServiceSwComponentType", k!"SensorActuatorSwComponentType", k!"NvBlockSwComponentType", k!"ServiceProxySwComponentType", k!"DataTypeMappingSet", k!"ModeDeclarationGroup", k!"ModeSwitchInterface", k!"SwcTiming", k!"LinUnconditionalFrame", k!"NmConfig", k!"NmPdu", k!"NPdu", k!"DcmIPdu", k!"SecuredIPdu", k!"CanTpConfig", k!"LinTpConfig", k!"LinCluster", k!"CanCluster", k!"CanFrame", k!"Gateway", k!"ISignal", k!"System", k!"EcuInstance", k!"ISignalIPdu", k!"SystemSignal", k!"SignalServiceTranslationPropsSet", k!"ParameterInterface", k!"NvDataInterface", k!"GenericEthernetFrame", k!"LifeCycleInfoSet", k!"PhysicalDimension", k!"FlatMap"], k!"writePortInterfaceMappingSet_PortInterfaceMappingSet"⟩,
      ⟨[(false, [k!"EthernetCluster"])], [k!"ARPackage", k!"ComplexDeviceDriverSwComponentType", k!"SwcImplementation", k!"CompositionSwComponentType", k!"ApplicationPrimitiveDataType", k!"ApplicationRecordDataType", k!"SwBaseType", k!"CompuMethod", k!"ConstantSpecification", k!"DataConstr", k!"EndToEndProtectionSet", k!"SenderReceiverInterface", k!"Unit", k!"BswModuleDescription", k!"BswModuleEntry", k!"SwcBswMapping", k!"BswImplementation", k!"ImplementationDataType", k!"ClientServerInterface", k!"ApplicationSwComponentType", k!"EcuAbstractionSwComponentType", k!"ApplicationArrayDataType", k!"SwRecordLayout", k!"SwAddrMethod", k!"TriggerInterface", k!"ServiceSwComponentType", k!"SensorActuatorSwComponentType", k!"NvBlockSwComponentType", k!"ServiceProxySwComponentType", k!"DataTypeMappingSet", k!"ModeDeclarationGroup", k!"ModeSwitchInterface", k!"SwcTiming", k!"LinUnconditionalFrame", k!"NmConfig", k!"NmPdu", k!"NPdu", k!"DcmIPdu", k!"SecuredIPdu", k!"CanTpConfig", k!"LinTpConfig", k!"LinCluster", k!"CanCluster", k!"CanFrame", k!"Gateway", k!"ISignal", k!"System", k!"EcuInstance", k!"ISignalIPdu", k!"SystemSignal", k!"SignalServiceTranslationPropsSet", k!"ParameterInterface", k!"NvDataInterface", k!"GenericEthernetFrame", k!"LifeCycleInfoSet", k!"PhysicalDimension", k!"FlatMap", k!"PortInterfaceMappingSet"], k!"writeEthernetCluster_EthernetCluster"⟩,
      ⟨[(false, [k!"ISignalIPduGroup"])], [k!"ARPackage", k!"ComplexDeviceDriverSwComponentType", k!"SwcImplementation", k!"CompositionSwComponentType", k!"ApplicationPrimitiveDataType", k!"ApplicationRecordDataType", k!"SwBaseType", k!"CompuMethod", k!"ConstantSpecification", k!"DataConstr", k!"EndToEndProtectionSet", k!"SenderReceiverInterface", k!"Unit", k!"BswModuleDescription", k!"BswModuleEntry", k!"SwcBswMapping", k!"BswImplementation", k!"ImplementationDataType", k!"ClientServerInterface", k!"ApplicationSwComponentType", k!"EcuAbstractionSwComponentType", k!"ApplicationArrayDataType", k!"SwRecordLayout", k!"SwAddrMethod", k!"TriggerInterface", k!"ServiceSwComponentType", k!"SensorActuatorSwComponentType", k!"NvBlockSwComponentType", k!"ServiceProxySwComponentType", k!"DataTypeMappingSet", k!"ModeDeclarationGroup", k!"ModeSwitchInterface", k!"SwcTiming", k!"LinUnconditionalFrame", k!"NmConfig", k!"NmPdu", k!"NPdu", k!"DcmIPdu", k!"SecuredIPdu", k!"CanTpConfig", k!"LinTpConfig", k!"LinCluster", k!"CanCluster", k!"CanFrame", k!"Gateway", k!"ISignal", k!"System", k!"EcuInstance", k!"ISignalIPdu", k!"SystemSignal", k!"SignalServiceTranslationPropsSet", k!"ParameterInterface", k!"NvDataInterface", k!"GenericEthernetFrame", k!"LifeCycleInfoSet", k!"PhysicalDimension", k!"FlatMap", k!"PortInterfaceMappingSet", k!"EthernetCluster"], k!"writeISignalIPduGroup_ISignalIPduGroup"⟩,
      ⟨[(false, [k!"DiagnosticConnection"])], [k!"ARPackage", k!"ComplexDeviceDriverSwComponentType", k!"SwcImplementation", k!"CompositionSwComponentType", k!"ApplicationPrimitiveDataType", k!"ApplicationRecordDataType", k!"SwBaseType", k!"CompuMethod", k!"ConstantSpecification", k!"DataConstr", k!"EndToEndProtectionSet", k!"SenderReceiverInterface", k!"Unit", k!"BswModuleDescription", k!"BswModuleEntry", k!"SwcBswMapping", k!"BswImplementation", k!"ImplementationDataType", k!"ClientServerInterface", k!"ApplicationSwComponentType", k!"EcuAbstractionSwComponentType", k!"ApplicationArrayDataType", k!"SwRecordLayout", k!"SwAddrMethod", k!"TriggerInterface", k!"ServiceSwComponentType", k!"SensorActuatorSwComponentType", k!"NvBlockSwComponentType", k!"ServiceProxySwComponentType", k!"DataTypeMappingSet", k!"ModeDeclarationGroup", k!"ModeSwitchInterface", k!"SwcTiming", k!"LinUnconditionalFrame", k!"NmConfig", k!"NmPdu", k!"NPdu", k!"DcmIPdu", k!"SecuredIPdu", k!"CanTpConfig", k!"LinTpConfig", k!"LinCluster", k!"CanCluster", k!"CanFrame", k!"Gateway", k!"ISignal", k!"System", k!"EcuInstance", k!"ISignalIPdu", k!"SystemSignal", k!"SignalServiceTranslationPropsSet", k!"ParameterInterface", k!"NvDataInterface", k!"GenericEthernetFrame", k!"LifeCycleInfoSet", k!"PhysicalDimension", k!"FlatMap", k!"PortInterfaceMappingSet", k!"EthernetCluster", k!"ISignalIPduGroup"], k!"writeDiagnosticConnection_DiagnosticConnection"⟩,
      ⟨[(false, [k!"DiagnosticServiceTable"])], [k!"ARPackage", k!"ComplexDeviceDriverSwComponentType", k!"SwcImplementation", k!"CompositionSwComponentType", k!"ApplicationPrimitiveDataType", k!"ApplicationRecordDataType", k!"SwBaseType", k!"CompuMethod", k!"ConstantSpecification", k!"DataConstr", k!"EndToEndProtectionSet", k!"SenderReceiverInterface", k!"Unit", k!"BswModuleDescription", k!"BswModuleEntry", k!"SwcBswMapping", k!"BswImplementation", k!"ImplementationDataType", k!"ClientServerInterface", k!"ApplicationSwComponentType", k!"EcuAbstractionSwComponentType", k!"ApplicationArrayDataType", k!"SwRecordLayout", k!"SwAddrMethod", k!"TriggerInterface", k!"ServiceSwComponentType", k!"SensorActuatorSwComponentType", k!"NvBlockSwComponentType", k!"ServiceProxySwComponentType", k!"DataTypeMappingSet", k!"ModeDeclarationGroup", k!"ModeSwitchInterface", k!"SwcTiming", k!"LinUnconditionalFrame", k!"NmConfig", k!"NmPdu", k!"NPdu", k!"DcmIPdu", k!"SecuredIPdu", k!"CanTpConfig", k!"LinTpConfig", k!"LinCluster", k!"CanCluster", k!"CanFrame", k!"Gateway", k!"ISignal", k!"System", k!"EcuInstance", k!"ISignalIPdu", k!"SystemSignal", k!"SignalServiceTranslationPropsSet", k!"ParameterInterface", k!"NvDataInterface", k!"GenericEthernetFrame", k!"LifeCycleInfoSet", k!"PhysicalDimension", k!"FlatMap", k!"PortInterfaceMappingSet", k!"EthernetCluster", k!"ISignalIPduGroup", k!"DiagnosticConnection"], k!"writeDiagnosticServiceTable_DiagnosticServiceTable"⟩,
      ⟨[(false, [k!"Documentation"])], [k!"ARPackage", k!"ComplexDeviceDriverSwComponentType", k!"SwcImplementation", k!"CompositionSwComponentType", k!"ApplicationPrimitiveDataType", k!"ApplicationRecordDataType", k!"SwBaseType", k!"CompuMethod", k!"ConstantSpecification", k!"DataConstr", k!"EndToEndProtectionSet", k!"SenderReceiverInterface", k!"Unit", k!"BswModuleDescription", k!"BswModuleEntry", k!"SwcBswMapping", k!"BswImplementation", k!"ImplementationDataType", k!"ClientServerInterface", k!"ApplicationSwComponentType", k!"EcuAbstractionSwComponentType", k!"ApplicationArrayDataType", k!"SwRecordLayout", k!"SwAddrMethod", k!"TriggerInterface", k!"ServiceSwComponentType", k!"SensorActuatorSwComponentType", k!"NvBlockSwComponentType", k!"ServiceProxySwComponentType", k!"DataTypeMappingSet", k!"ModeDeclarationGroup", k!"ModeSwitchInterface", k!"SwcTiming", k!"LinUnconditionalFrame", k!"NmConfig", k!"NmPdu", k!"NPdu", k!"DcmIPdu", k!"SecuredIPdu", k!"CanTpConfig", k!"LinTpConfig", k!"LinCluster", k!"CanCluster", k!"CanFrame", k!"Gateway", k!"ISignal", k!"System", k!"EcuInstance", k!"ISignalIPdu", k!"SystemSignal", k!"SignalServiceTranslationPropsSet", k!"ParameterInterface", k!"NvDataInterface", k!"GenericEthernetFrame", k!"LifeCycleInfoSet", k!"PhysicalDimension", k!"FlatMap", k!"PortInterfaceMappingSet", k!"EthernetCluster", k!"ISignalIPduGroup", k!"DiagnosticConnection", k!"DiagnosticServiceTable"], k!"writeDocumentation_Documentation"⟩,
      ⟨[(false, [k!"MultiplexedIPdu"])], [k!"ARPackage", k!"ComplexDeviceDriverSwComponentType", k!"SwcImplementation", k!"CompositionSwComponentType", k!"ApplicationPrimitiveDataType", k!"ApplicationRecordDataType", k!"SwBaseType", k!"CompuMethod", k!"ConstantSpecification", k!"DataConstr", k!"EndToEndProtectionSet", k!"SenderReceiverInterface", k!"Unit", k!"BswModuleDescription", k!"BswModuleEntry", k!"SwcBswMapping", k!"BswImplementation", k!"ImplementationDataType", k!"ClientServerInterface", k!"ApplicationSwComponentType", k!"EcuAbstractionSwComponentType", k!"ApplicationArrayDataType", k!"SwRecordLayout", k!"SwAddrMethod", k!"TriggerInterface", k!"ServiceSwComponentType", k!"SensorActuatorSwComponentType", k!"NvBlockSwComponentType", k!"ServiceProxySwComponentType", k!"DataTypeMappingSet", k!"ModeDeclarationGroup", k!"ModeSwitchInterface", k!"SwcTiming", k!"LinUnconditionalFrame", k!"NmConfig", k!"NmPdu", k!"NPdu", k!"DcmIPdu", k!"SecuredIPdu", k!"CanTpConfig", k!"LinTpConfig", k!"LinCluster", k!"CanCluster", k!"CanFrame", k!"Gateway", k!"ISignal", k!"System", k!"EcuInstance", k!"ISignalIPdu", k!"SystemSignal", k!"SignalServiceTranslationPropsSet", k!"ParameterInterface", k!"NvDataInterface", k!"GenericEthernetFrame", k!"LifeCycleInfoSet", k!"PhysicalDimension", k!"FlatMap", k!"PortInterfaceMappingSet", k!"EthernetCluster", k!"ISignalIPduGroup", k!"DiagnosticConnection", k!"DiagnosticServiceTable", k!"Documentation"], k!"writeMultiplexedIPdu_MultiplexedIPdu"⟩,
      ⟨[(false, [k!"UserDefinedIPdu"])], [k!"ARPackage", k!"ComplexDeviceDriverSwComponentType", k!"SwcImplementation", k!"CompositionSwComponentType", k!"ApplicationPrimitiveDataType", k!"ApplicationRecordDataType", k!"SwBaseType", k!"CompuMethod", k!"ConstantSpecification", k!"DataConstr", k!"EndToEndProtectionSet", k!"SenderReceiverInterface", k!"Unit", k!"BswModuleDescription", k!"BswModuleEntry", k!"SwcBswMapping", k!"BswImplementation", k!"ImplementationDataType", k!"ClientServerInterface", k!"ApplicationSwComponentType", k!"EcuAbstractionSwComponentType", k!"ApplicationArrayDataType", k!"SwRecordLayout", k!"SwAddrMethod", k!"TriggerInterface", k!"ServiceSwComponentType", k!"SensorActuatorSwComponentType", k!"NvBlockSwComponentType", k!"ServiceProxySwComponentType", k!"DataTypeMappingSet", k!"ModeDeclarationGroup", k!"ModeSwitchInterface", k!"SwcTiming", k!"LinUnconditionalFrame", k!"NmConfig", k!"NmPdu", k!"NPdu", k!"DcmIPdu", k!"SecuredIPdu", k!"CanTpConfig", k!"LinTpConfig", k!"LinCluster", k!"CanCluster", k!"CanFrame", k!"Gateway", k!"ISignal", k!"System", k!"EcuInstance", k!"ISignalIPdu", k!"SystemSignal", k!"SignalServiceTranslationPropsSet", k!"ParameterInterface", k!"NvDataInterface", k!"GenericEthernetFrame", k!"LifeCycleInfoSet", k!"PhysicalDimension", k!"FlatMap", k!"PortInterfaceMappingSet", k!"EthernetCluster", k!"ISignalIPduGroup", k!"DiagnosticConnection", k!"DiagnosticServiceTable", k!"Documentation", k!"MultiplexedIPdu"], k!"writeUserDefinedIPdu_UserDefinedIPdu"⟩,
      ⟨[(false, [k!"UserDefinedPdu"])], [k!"ARPackage", k!"ComplexDeviceDriverSwComponentType", k!"SwcImplementation", k!"CompositionSwComponentType", k!"ApplicationPrimitiveDataType", k!"ApplicationRecordDataType", k!"SwBaseType", k!"CompuMethod", k!"ConstantSpecification", k!"DataConstr", k!"EndToEndProtectionSet", k!"SenderReceiverInterface", k!"Unit", k!"BswModuleDescription", k!"BswModuleEntry", k!"SwcBswMapping", k!"BswImplementation", k!"ImplementationDataType", k!"ClientServerInterface", k!"ApplicationSwComponentType", k!"EcuAbstractionSwComponentType", k!"ApplicationArrayDataType", k!"SwRecordLayout", k!"SwAddrMethod", k!"TriggerInterface", k!"ServiceSwComponentType", k!"SensorActuatorSwComponentType", k!"NvBlockSwComponentType", k!"ServiceProxySwComponentType", k!"DataTypeMappingSet", k!"ModeDeclarationGroup", k!"ModeSwitchInterface", k!"SwcTiming", k!"LinUnconditionalFrame", k!"NmConfig", k!"NmPdu", k!"NPdu", k!"DcmIPdu", k!"SecuredIPdu", k!"CanTpConfig", k!"LinTpConfig", k!"LinCluster", k!"CanCluster", k!"CanFrame", k!"Gateway", k!"ISignal", k!"System", k!"EcuInstance", k!"ISignalIPdu", k!"SystemSignal", k!"SignalServiceTranslationPropsSet", k!"ParameterInterface", k!"NvDataInterface", k!"GenericEthernetFrame", k!"LifeCycleInfoSet", k!"PhysicalDimension", k!"FlatMap", k!"PortInterfaceMappingSet", k!"EthernetCluster", k!"ISignalIPduGroup", k!"DiagnosticConnection", k!"DiagnosticServiceTable", k!"Documentation", k!"MultiplexedIPdu", k!"UserDefinedIPdu"], k!"writeUserDefinedPdu_UserDefinedPdu"⟩,
      ⟨[(false, [k!"GeneralPurposePdu"])], [k!"ARPackage", k!"ComplexDeviceDriverSwComponentType", k!"SwcImplementation", k!"CompositionSwComponentType", k!"ApplicationPrimitiveDataType", k!"ApplicationRecordDataType", k!"SwBaseType", k!"CompuMethod", k!"ConstantSpecification", k!"DataConstr", k!"EndToEndProtectionSet", k!"SenderReceiverInterface", k!"Unit", k!"BswModuleDescription", k!"BswModuleEntry", k!"SwcBswMapping", k!"BswImplementation", k!"ImplementationDataType", k!"ClientServerInterface", k!"ApplicationSwComponentType", k!"EcuAbstractionSwComponentType", k!"ApplicationArrayDataType", k!"SwRecordLayout", k!"SwAddrMethod", k!"TriggerInterface", k!"ServiceSwComponentType", k!"SensorActuatorSwComponentType", k!"NvBlockSwComponentType", k!"ServiceProxySwComponentType", k!"DataTypeMappingSet", k!"ModeDeclarationGroup", k!"ModeSwitchInterface", k!"SwcTiming", k!"LinUnconditionalFrame", k!"NmConfig", k!"NmPdu", k!"NPdu", k!"DcmIPdu", k!"SecuredIPdu", k!"CanTpConfig", k!"LinTpConfig", k!"LinCluster", k!"CanCluster", k!"CanFrame", k!"Gateway", k!"ISignal", k!"System", k!"EcuInstance", k!"ISignalIPdu", k!"SystemSignal", k!"SignalServiceTranslationPropsSet", k!"ParameterInterface", k!"NvDataInterface", k!"GenericEthernetFrame", k!"LifeCycleInfoSet", k!"PhysicalDimension", k!"FlatMap", k!"PortInterfaceMappingSet", k!"EthernetCluster", k!"ISignalIPduGroup", k!"DiagnosticConnection", k!"DiagnosticServiceTable", k!"Documentation", k!"MultiplexedIPdu", k!"UserDefinedIPdu", k!"UserDefinedPdu"], k!"writeGeneralPurposePdu_GeneralPurposePdu"⟩,
      ⟨[(false, [k!"GeneralPurposeIPdu"])], [k!"ARPackage", k!"ComplexDeviceDriverSwComponentType", k!"SwcImplementation", k!"CompositionSwComponentType", k!"ApplicationPrimitiveDataType", k!"ApplicationRecordDataType", k!"SwBaseType", k!"CompuMethod", k!"ConstantSpecification", k!"DataConstr", k!"EndToEndProtectionSet", k!"SenderReceiverInterface", k!"Unit", k!"BswModuleDescription", k!"BswModuleEntry", k!"SwcBswMapping", k!"BswImplementation", k!"ImplementationDataType", k!"ClientServerInterface", k!"ApplicationSwComponentType", k!"EcuAbstractionSwComponentType", k!"ApplicationArrayDataType", k!"SwRecordLayout", k!"SwAddrMethod", k!"TriggerInterface", k!"ServiceSwComponentType", k!"SensorActuatorSwComponentType", k!"NvBlockSwComponentType", k!"ServiceProxySwComponentType", k!"DataTypeMappingSet", k!"ModeDeclarationGroup", k!"ModeSwitchInterface", k!"SwcTiming", k!"LinUnconditionalFrame", k!"NmConfig", k!"NmPdu", k!"NPdu", k!"DcmIPdu", k!"SecuredIPdu", k!"CanTpConfig", k!"LinTpConfig", k!"LinCluster", k!"CanCluster", k!"CanFrame", k!"Gateway", k!"ISignal", k!"System", k!"EcuInstance", k!"ISignalIPdu", k!"SystemSignal", k!"SignalServiceTranslationPropsSet", k!"ParameterInterface", k!"NvDataInterface", k!"GenericEthernetFrame", k!"LifeCycleInfoSet", k!"PhysicalDimension", k!"FlatMap", k!"PortInterfaceMappingSet", k!"EthernetCluster", k!"ISignalIPduGroup", k!"DiagnosticConnection", k!"DiagnosticServiceTable", k!"Documentation", k!"MultiplexedIPdu", k!"UserDefinedIPdu", k!"UserDefinedPdu", k!"GeneralPurposePdu"], k!"writeGeneralPurposeIPdu_GeneralPurposeIPdu"⟩,
      ⟨[(false, [k!"SecureCommunicationPropsSet"])], [k!"ARPackage", k!"ComplexDeviceDriverSwComponentType", k!"SwcImplementation", k!"CompositionSwComponentType", k!"ApplicationPrimitiveDataType", k!"ApplicationRecordDataType", k!"SwBaseType", k!"CompuMethod", k!"ConstantSpecification", k!"DataConstr", k!"EndToEndProtectionSet", k!"SenderReceiverInterface", k!"Unit", k!"BswModuleDescription", k!"BswModuleEntry", k!"SwcBswMapping", k!"BswImplementation", k!"ImplementationDataType", k!"ClientServerInterface", k!"ApplicationSwComponentType", k!"EcuAbstractionSwComponentType", k!"ApplicationArrayDataType", k!"SwRecordLayout", k!"SwAddrMethod", k!"TriggerInterface", k!"ServiceSwComponentType", k!"SensorActuatorSwComponentType", k!"NvBlockSwComponentType", k!"ServiceProxySwComponentType", k!"DataTypeMappingSet", k!"ModeDeclarationGroup", k!"ModeSwitchInterface", k!"SwcTiming", k!"LinUnconditionalFrame", k!"NmConfig", k!"NmPdu", k!"NPdu", k!"DcmIPdu", k!"SecuredIPdu", k!"CanTpConfig", k!"LinTpConfig", k!"LinCluster", k!"CanCluster", k!"CanFrame", k!"Gateway", k!"ISignal", k!"System", k!"EcuInstance", k!"ISignalIPdu", k!"SystemSignal", k!"SignalServiceTranslationPropsSet", k!"ParameterInterface", k!"NvDataInterface", k!"GenericEthernetFrame", k!"LifeCycleInfoSet", k!"PhysicalDimension", k!"FlatMap", k!"PortInterfaceMappingSet", k!"EthernetCluster", k!"ISignalIPduGroup", k!"DiagnosticConnection", k!"DiagnosticServiceTable", k!"Documentation", k!"MultiplexedIPdu", k!"UserDefinedIPdu", k!"UserDefinedPdu", k!"GeneralPurposePdu", k!"GeneralPurposeIPdu"], k!"writeSecureCommunicationPropsSet_SecureCommunicationPropsSet"⟩,
      ⟨[(false, [k!"SoAdRoutingGroup"])], [k!"ARPackage", k!"ComplexDeviceDriverSwComponentType", k!"SwcImplementation", k!"CompositionSwComponentType", k!"ApplicationPrimitiveDataType", k!"ApplicationRecordDataType", k!"SwBaseType", k!"CompuMethod", k!"ConstantSpecification", k!"DataConstr", k!"EndToEndProtectionSet", k!"SenderReceiverInterface", k!"Unit", k!"BswModuleDescription", k!"BswModuleEntry", k!"SwcBswMapping", k!"BswImplementation", k!"ImplementationDataType", k!"ClientServerInterface", k!"ApplicationSwComponentType", k!"EcuAbstractionSwComponentType", k!"ApplicationArrayDataType", k!"SwRecordLayout", k!"SwAddrMethod", k!"TriggerInterface", k!"ServiceSwComponentType", k!"SensorActuatorSwComponentType", k!"NvBlockSwComponentType", k!"ServiceProxySwComponentType", k!"DataTypeMappingSet", k!"ModeDeclarationGroup", k!"ModeSwitchInterface", k!"SwcTiming", k!"LinUnconditionalFrame", k!"NmConfig", k!"NmPdu", k!"NPdu", k!"DcmIPdu", k!"SecuredIPdu", k!"CanTpConfig", k!"LinTpConfig", k!"LinCluster", k!"CanCluster", k!"CanFrame", k!"Gateway", k!"ISignal", k!"System", k!"EcuInstance", k!"ISignalIPdu", k!"SystemSignal", k!"SignalServiceTranslationPropsSet", k!"ParameterInterface", k!"NvDataInterface", k!"GenericEthernetFrame", k!"LifeCycleInfoSet", k!"PhysicalDimension", k!"FlatMap", k!"PortInterfaceMappingSet", k!"EthernetCluster", k!"ISignalIPduGroup", k!"DiagnosticConnection", k!"DiagnosticServiceTable", k!"Documentation", k!"MultiplexedIPdu", k!"UserDefinedIPdu", k!"UserDefinedPdu", k!"GeneralPurposePdu", k!"GeneralPurposeIPdu", k!"SecureCommunicationPropsSet"], k!"writeSoAdRoutingGroup_SoAdRoutingGroup"⟩,
      ⟨[(false, [k!"DoIpTpConfig"])], [k!"ARPackage", k!"ComplexDeviceDriverSwComponentType", k!"SwcImplementation", k!"CompositionSwComponentType", k!"ApplicationPrimitiveDataType", k!"ApplicationRecordDataType", k!"SwBaseType", k!"CompuMethod", k!"ConstantSpecification", k!"DataConstr", k!"EndToEndProtectionSet", k!"SenderReceiverInterface", k!"Unit", k!"BswModuleDescription", k!"BswModuleEntry", k!"SwcBswMapping", k!"BswImplementation", k!"ImplementationDataType", k!"ClientServerInterface", k!"ApplicationSwComponentType", k!"EcuAbstractionSwComponentType", k!"ApplicationArrayDataType", k!"SwRecordLayout", k!"SwAddrMethod", k!"TriggerInterface", k!"ServiceSwComponentType", k!"SensorActuatorSwComponentType", k!"NvBlockSwComponentType", k!"ServiceProxySwComponentType", k!"DataTypeMappingSet", k!"ModeDeclarationGroup", k!"ModeSwitchInterface", k!"SwcTiming", k!"LinUnconditionalFrame", k!"NmConfig", k!"NmPdu", k!"NPdu", k!"DcmIPdu", k!"SecuredIPdu", k!"CanTpConfig", k!"LinTpConfig", k!"LinCluster", k!"CanCluster", k!"CanFrame", k!"Gateway", k!"ISignal", k!"System", k!"EcuInstance", k!"ISignalIPdu", k!"SystemSignal", k!"SignalServiceTranslationPropsSet", k!"ParameterInterface", k!"NvDataInterface", k!"GenericEthernetFrame", k!"LifeCycleInfoSet", k!"PhysicalDimension", k!"FlatMap", k!"PortInterfaceMappingSet", k!"EthernetCluster", k!"ISignalIPduGroup", k!"DiagnosticConnection", k!"DiagnosticServiceTable", k!"Documentation", k!"MultiplexedIPdu", k!"UserDefinedIPdu", k!"UserDefinedPdu", k!"GeneralPurposePdu", k!"GeneralPurposeIPdu", k!"SecureCommunicationPropsSet", k!"SoAdRoutingGroup"], k!"writeDoIpTpConfig_DoIpTpConfig"⟩,
      ⟨[(false, [k!"HwElement"])], [k!"ARPackage", k!"ComplexDeviceDriverSwComponentType", k!"SwcImplementation", k!"CompositionSwComponentType", k!"ApplicationPrimitiveDataType", k!"ApplicationRecordDataType", k!"SwBaseType", k!"CompuMethod", k!"ConstantSpecification", k!"DataConstr", k!"EndToEndProtectionSet", k!"SenderReceiverInterface", k!"Unit", k!"BswModuleDescription", k!"BswModuleEntry", k!"SwcBswMapping", k!"BswImplementation", k!"ImplementationDataType", k!"ClientServerInterface", k!"ApplicationSwComponentType", k!"EcuAbstractionSwComponentType", k!"ApplicationArrayDataType", k!"SwRecordLayout", k!"SwAddrMethod", k!"TriggerInterface", k!"ServiceSwComponentType", k!"SensorActuatorSwComponentType", k!"NvBlockSwComponentType", k!"ServiceProxySwComponentType", k!"DataTypeMappingSet", k!"ModeDeclarationGroup", k!"ModeSwitchInterface", k!"SwcTiming", k!"LinUnconditionalFrame", k!"NmConfig", k!"NmPdu", k!"NPdu", k!"DcmIPdu", k!"SecuredIPdu", k!"CanTpConfig", k!"LinTpConfig", k!"LinCluster", k!"CanCluster", k!"CanFrame", k!"Gateway", k!"ISignal", k!"System", k!"EcuInstance", k!"ISignalIPdu", k!"SystemSignal", k!"SignalServiceTranslationPropsSet", k!"ParameterInterface", k!"NvDataInterface", k!"GenericEthernetFrame", k!"LifeCycleInfoSet", k!"PhysicalDimension", k!"FlatMap", k!"PortInterfaceMappingSet", k!"EthernetCluster", k!"ISignalIPduGroup", k!"DiagnosticConnection", k!"DiagnosticServiceTable", k!"Documentation", k!"MultiplexedIPdu", k!"UserDefinedIPdu", k!"UserDefinedPdu", k!"GeneralPurposePdu", k!"GeneralPurposeIPdu", k!"SecureCommunicationPropsSet", k!"SoAdRoutingGroup", k!"DoIpTpConfig"], k!"writeHwElement_HwElement"⟩,
      ⟨[(false, [k!"HwCategory"])], [k!"ARPackage", k!"ComplexDeviceDriverSwComponentType", k!"SwcImplementation", k!"CompositionSwComponentType", k!"ApplicationPrimitiveDataType", k!"ApplicationRecordDataType", k!"SwBaseType", k!"CompuMethod", k!"ConstantSpecification", k!"DataConstr", k!"EndToEndProtectionSet", k!"SenderReceiverInterface", k!"Unit", k!"BswModuleDescription", k!"BswModuleEntry", k!"SwcBswMapping", k!"BswImplementation", k!"ImplementationDataType", k!"ClientServerInterface", k!"ApplicationSwComponentType", k!"EcuAbstractionSwComponentType", k!"ApplicationArrayDataType", k!"SwRecordLayout", k!"SwAddrMethod", k!"TriggerInterface", k!"ServiceSwComponentType", k!"SensorActuatorSwComponentType", k!"NvBlockSwComponentType", k!"ServiceProxySwComponentType", k!"DataTypeMappingSet", k!"ModeDeclarationGroup", k!"ModeSwitchInterface", k!"SwcTiming", k!"LinUnconditionalFrame", k!"NmConfig", k!"NmPdu", k!"NPdu", k!"DcmIPdu", k!"SecuredIPdu", k!"CanTpConfig", k!"LinTpConfig", k!"LinCluster", k!"CanCluster", k!"CanFrame", k!"Gateway", k!"ISignal", k!"System", k!"EcuInstance", k!"ISignalIPdu", k!"SystemSignal", k!"SignalServiceTranslationPropsSet", k!"ParameterInterface", k!"NvDataInterface", k!"GenericEthernetFrame", k!"LifeCycleInfoSet", k!"PhysicalDimension", k!"FlatMap", k!"PortInterfaceMappingSet", k!"EthernetCluster", k!"ISignalIPduGroup", k!"DiagnosticConnection", k!"DiagnosticServiceTable", k!"Documentation", k!"MultiplexedIPdu", k!"UserDefinedIPdu", k!"UserDefinedPdu", k!"GeneralPurposePdu", k!"GeneralPurposeIPdu", k!"SecureCommunicationPropsSet", k!"SoAdRoutingGroup", k!"DoIpTpConfig", k!"HwElement"], k!"writeHwCategory_HwCategory"⟩,
      ⟨[(false, [k!"HwType"])], [k!"ARPackage", k!"ComplexDeviceDriverSwComponentType", k!"SwcImplementation", k!"CompositionSwComponentType", k!"ApplicationPrimitiveDataType", k!"ApplicationRecordDataType", k!"SwBaseType", k!"CompuMethod", k!"ConstantSpecification", k!"DataConstr", k!"EndToEndProtectionSet", k!"SenderReceiverInterface", k!"Unit", k!"BswModuleDescription", k!"BswModuleEntry", k!"SwcBswMapping", k!"BswImplementation", k!"ImplementationDataType", k!"ClientServerInterface", k!"ApplicationSwComponentType", k!"EcuAbstractionSwComponentType", k!"ApplicationArrayDataType", k!"SwRecordLayout", k!"SwAddrMethod", k!"TriggerInterface", k!"ServiceSwComponentType", k!"SensorActuatorSwComponentType", k!"NvBlockSwComponentType", k!"ServiceProxySwComponentType", k!"DataTypeMappingSet", k!"ModeDeclarationGroup", k!"ModeSwitchInterface", k!"SwcTiming", k!"LinUnconditionalFrame", k!"NmConfig", k!"NmPdu", k!"NPdu", k!"DcmIPdu", k!"SecuredIPdu", k!"CanTpConfig", k!"LinTpConfig", k!"LinCluster", k!"CanCluster", k!"CanFrame", k!"Gateway", k!"ISignal", k!"System", k!"EcuInstance", k!"ISignalIPdu", k!"SystemSignal", k!"SignalServiceTranslationPropsSet", k!"ParameterInterface", k!"NvDataInterface", k!"GenericEthernetFrame", k!"LifeCycleInfoSet", k!"PhysicalDimension", k!"FlatMap", k!"PortInterfaceMappingSet", k!"EthernetCluster", k!"ISignalIPduGroup", k!"DiagnosticConnection", k!"DiagnosticServiceTable", k!"Documentation", k!"MultiplexedIPdu", k!"UserDefinedIPdu", k!"UserDefinedPdu", k!"GeneralPurposePdu", k!"GeneralPurposeIPdu", k!"SecureCommunicationPropsSet", k!"SoAdRoutingGroup", k!"DoIpTpConfig", k!"HwElement", k!"HwCategory"], k!"writeHwType_HwType"⟩,
      ⟨[(false, [k!"DataTransformationSet"])], [k!"ARPackage", k!"ComplexDeviceDriverSwComponentType", k!"SwcImplementation", k!"CompositionSwComponentType", k!"ApplicationPrimitiveDataType", k!"ApplicationRecordDataType", k!"SwBaseType", k!"CompuMethod", k!"ConstantSpecification", k!"DataConstr", k!"EndToEndProtectionSet", k!"SenderReceiverInterface", k!"Unit", k!"BswModuleDescription", k!"BswModuleEntry", k!"SwcBswMapping", k!"BswImplementation", k!"ImplementationDataType", k!"ClientServerInterface", k!"ApplicationSwComponentType", k!"EcuAbstractionSwComponentType", k!"ApplicationArrayDataType", k!"SwRecordLayout", k!"SwAddrMethod", k!"TriggerInterface", k!"ServiceSwComponentType", k!"SensorActuatorSwComponentType", k!"NvBlockSwComponentType", k!"ServiceProxySwComponentType", k!"DataTypeMappingSet", k!"ModeDeclarationGroup", k!"ModeSwitchInterface", k!"SwcTiming", k!"LinUnconditionalFrame", k!"NmConfig", k!"NmPdu", k!"NPdu", k!"DcmIPdu", k!"SecuredIPdu", k!"CanTpConfig", k!"LinTpConfig", k!"LinCluster", k!"CanCluster", k!"CanFrame", k!"Gateway", k!"ISignal", k!"System", k!"EcuInstance", k!"ISignalIPdu", k!"SystemSignal", k!"SignalServiceTranslationPropsSet", k!"ParameterInterface", k!"NvDataInterface", k!"GenericEthernetFrame", k!"LifeCycleInfoSet", k!"PhysicalDimension", k!"FlatMap", k!"PortInterfaceMappingSet", k!"EthernetCluster", k!"ISignalIPduGroup", k!"DiagnosticConnection", k!"DiagnosticServiceTable", k!"Documentation", k!"MultiplexedIPdu", k!"UserDefinedIPdu", k!"UserDefinedPdu", k!"GeneralPurposePdu", k!"GeneralPurposeIPdu", k!"SecureCommunicationPropsSet", k!"SoAdRoutingGroup", k!"DoIpTpConfig", k!"HwElement", k!"HwCategory", k!"HwType"], k!"writeDataTransformationSet_DataTransformationSet"⟩,
      ⟨[(false, [k!"E2EProfileCompatibilityProps"])], [k!"ARPackage", k!"ComplexDeviceDriverSwComponentType", k!"SwcImplementation", k!"CompositionSwComponentType", k!"ApplicationPrimitiveDataType", k!"ApplicationRecordDataType", k!"SwBaseType", k!"CompuMethod", k!"ConstantSpecification", k!"DataConstr", k!"EndToEndProtectionSet", k!"SenderReceiverInterface", k!"Unit", k!"BswModuleDescription", k!"BswModuleEntry", k!"SwcBswMapping", k!"BswImplementation", k!"ImplementationDataType", k!"ClientServerInterface", k!"ApplicationSwComponentType", k!"EcuAbstractionSwComponentType", k!"ApplicationArrayDataType", k!"SwRecordLayout", k!"SwAddrMethod", k!"TriggerInterface", k!"ServiceSwComponentType", k!"SensorActuatorSwComponentType", k!"NvBlockSwComponentType", k!"ServiceProxySwComponentType", k!"DataTypeMappingSet", k!"ModeDeclarationGroup", k!"ModeSwitchInterface", k!"SwcTiming", k!"LinUnconditionalFrame", k!"NmConfig", k!"NmPdu", k!"NPdu", k!"DcmIPdu", k!"SecuredIPdu", k!"CanTpConfig", k!"LinTpConfig", k!"LinCluster", k!"CanCluster", k!"CanFrame", k!"Gateway", k!"ISignal", k!"System", k!"EcuInstance", k!"ISignalIPdu", k!"SystemSignal", k!"SignalServiceTranslationPropsSet", k!"ParameterInterface", k!"NvDataInterface", k!"GenericEthernetFrame", k!"LifeCycleInfoSet", k!"PhysicalDimension", k!"FlatMap", k!"PortInterfaceMappingSet", k!"EthernetCluster", k!"ISignalIPduGroup", k!"DiagnosticConnection", k!"DiagnosticServiceTable", k!"Documentation", k!"MultiplexedIPdu", k!"UserDefinedIPdu", k!"UserDefinedPdu", k!"GeneralPurposePdu", k!"GeneralPurposeIPdu", k!"SecureCommunicationPropsSet", k!"SoAdRoutingGroup", k!"DoIpTpConfig", k!"HwElement", k!"HwCategory", k!"HwType", k!"DataTransformationSet"], k!"writeE2EProfileCompatibilityProps_E2EProfileCompatibilityProps"⟩,
      ⟨[(false, [k!"FlexrayFrame"])], [k!"ARPackage", k!"ComplexDeviceDriverSwComponentType", k!"SwcImplementation", k!"CompositionSwComponentType", k!"ApplicationPrimitiveDataType", k!"ApplicationRecordDataType", k!"SwBaseType", k!"CompuMethod", k!"ConstantSpecification", k!"DataConstr", k!"EndToEndProtectionSet", k!"SenderReceiverInterface", k!"Unit", k!"BswModuleDescription", k!"BswModuleEntry", k!"SwcBswMapping", k!"BswImplementation", k!"ImplementationDataType", k!"ClientServerInterface", k!"ApplicationSwComponentType", k!"EcuAbstractionSwComponentType", k!"ApplicationArrayDataType", k!"SwRecordLayout", k!"SwAddrMethod", k!"TriggerInterface", k!"ServiceSwComponentType", k!"SensorActuatorSwComponentType", k!"NvBlockSwComponentType", k!"ServiceProxySwComponentType", k!"DataTypeMappingSet", k!"ModeDeclarationGroup", k!"ModeSwitchInterface", k!"SwcTiming", k!"LinUnconditionalFrame", k!"NmConfig", k!"NmPdu", k!"NPdu", k!"DcmIPdu", k!"SecuredIPdu", k!"CanTpConfig", k!"LinTpConfig", k!"LinCluster", k!"CanCluster", k!"CanFrame", k!"Gateway", k!"ISignal", k!"System", k!"EcuInstance", k!"ISignalIPdu", k!"SystemSignal", k!"SignalServiceTranslationPropsSet", k!"ParameterInterface", k!"NvDataInterface", k!"GenericEthernetFrame", k!"LifeCycleInfoSet", k!"PhysicalDimension", k!"FlatMap", k!"PortInterfaceMappingSet", k!"EthernetCluster", k!"ISignalIPduGroup", k!"DiagnosticConnection", k!"DiagnosticServiceTable", k!"Documentation", k!"MultiplexedIPdu", k!"UserDefinedIPdu", k!"UserDefinedPdu", k!"GeneralPurposePdu", k!"GeneralPurposeIPdu", k!"SecureCommunicationPropsSet", k!"SoAdRoutingGroup", k!"DoIpTpConfig", k!"HwElement", k!"HwCategory", k!"HwType", k!"DataTransformationSet", k!"E2EProfileCompatibilityProps"], k!"writeFlexrayFrame_FlexrayFrame"⟩,
      ⟨[(false, [k!"ISignalGroup"])], [k!"ARPackage", k!"ComplexDeviceDriverSwComponentType", k!"SwcImplementation", k!"CompositionSwComponentType", k!"ApplicationPrimitiveDataType", k!"ApplicationRecordDataType", k!"SwBaseType", k!"CompuMethod", k!"ConstantSpecification", k!"DataConstr", k!"EndToEndProtectionSet", k!"SenderReceiverInterface", k!"Unit", k!"BswModuleDescription", k!"BswModuleEntry", k!"SwcBswMapping", k!"BswImplementation", k!"ImplementationDataType", k!"ClientServerInterface", k!"ApplicationSwComponentType", k!"EcuAbstractionSwComponentType", k!"ApplicationArrayDataType", k!"SwRecordLayout", k!"SwAddrMethod", k!"TriggerInterface", k!"ServiceSwComponentType", k!"SensorActuatorSwComponentType", k!"NvBlockSwComponentType", k!"ServiceProxySwComponentType", k!"DataTypeMappingSet", k!"ModeDeclarationGroup", k!"ModeSwitchInterface", k!"SwcTiming", k!"LinUnconditionalFrame", k!"NmConfig", k!"NmPdu", k!"NPdu", k!"DcmIPdu", k!"SecuredIPdu", k!"CanTpConfig", k!"LinTpConfig", k!"LinCluster", k!"CanCluster", k!"CanFrame", k!"Gateway", k!"ISignal", k!"System", k!"EcuInstance", k!"ISignalIPdu", k!"SystemSignal", k!"SignalServiceTranslationPropsSet", k!"ParameterInterface", k!"NvDataInterface", k!"GenericEthernetFrame", k!"LifeCycleInfoSet", k!"PhysicalDimension", k!"FlatMap", k!"PortInterfaceMappingSet", k!"EthernetCluster", k!"ISignalIPduGroup", k!"DiagnosticConnection", k!"DiagnosticServiceTable", k!"Documentation", k!"MultiplexedIPdu", k!"UserDefinedIPdu", k!"UserDefinedPdu", k!"GeneralPurposePdu", k!"GeneralPurposeIPdu", k!"SecureCommunicationPropsSet", k!"SoAdRoutingGroup", k!"DoIpTpConfig", k!"HwElement", k!"HwCategory", k!"HwType", k!"DataTransformationSet", k!"E2EProfileCompatibilityProps", k!"FlexrayFrame"], k!"writeISignalGroup_ISignalGroup"⟩,
      ⟨[(false, [k!"SystemSignalGroup"])], [k!"ARPackage", k!"ComplexDeviceDriverSwComponentType", k!"SwcImplementation", k!"CompositionSwComponentType", k!"ApplicationPrimitiveDataType", k!"ApplicationRecordDataType", k!"SwBaseType", k!"CompuMethod", k!"ConstantSpecification", k!"DataConstr", k!"EndToEndProtectionSet", k!"SenderReceiverInterface", k!"Unit", k!"BswModuleDescription", k!"BswModuleEntry", k!"SwcBswMapping", k!"BswImplementation", k!"ImplementationDataType", k!"ClientServerInterface", k!"ApplicationSwComponentType", k!"EcuAbstractionSwComponentType", k!"ApplicationArrayDataType", k!"SwRecordLayout", k!"SwAddrMethod", k!"TriggerInterface", k!"ServiceSwComponentType", k!"SensorActuatorSwComponentType", k!"NvBlockSwComponentType", k!"ServiceProxySwComponentType", k!"DataTypeMappingSet", k!"ModeDeclarationGroup", k!"ModeSwitchInterface", k!"SwcTiming", k!"LinUnconditionalFrame", k!"NmConfig", k!"NmPdu", k!"NPdu", k!"DcmIPdu", k!"SecuredIPdu", k!"CanTpConfig", k!"LinTpConfig", k!"LinCluster", k!"CanCluster", k!"CanFrame", k!"Gateway", k!"ISignal", k!"System", k!"EcuInstance", k!"ISignalIPdu", k!"SystemSignal", k!"SignalServiceTranslationPropsSet", k!"ParameterInterface", k!"NvDataInterface", k!"GenericEthernetFrame", k!"LifeCycleInfoSet", k!"PhysicalDimension", k!"FlatMap", k!"PortInterfaceMappingSet", k!"EthernetCluster", k!"ISignalIPduGroup", k!"DiagnosticConnection", k!"DiagnosticServiceTable", k!"Documentation", k!"MultiplexedIPdu", k!"UserDefinedIPdu", k!"UserDefinedPdu", k!"GeneralPurposePdu", k!"GeneralPurposeIPdu", k!"SecureCommunicationPropsSet", k!"SoAdRoutingGroup", k!"DoIpTpConfig", k!"HwElement", k!"HwCategory", k!"HwType", k!"DataTransformationSet", k!"E2EProfileCompatibilityProps", k!"FlexrayFrame", k!"ISignalGroup"], k!"writeSystemSignalGroup_SystemSignalGroup"⟩,
      ⟨[(false, [k!"FlexrayCluster"])], [k!"ARPackage", k!"ComplexDeviceDriverSwComponentType", k!"SwcImplementation", k!"CompositionSwComponentType", k!"ApplicationPrimitiveDataType", k!"ApplicationRecordDataType", k!"SwBaseType", k!"CompuMethod", k!"ConstantSpecification", k!"DataConstr", k!"EndToEndProtectionSet", k!"SenderReceiverInterface", k!"Unit", k!"BswModuleDescription", k!"BswModuleEntry", k!"SwcBswMapping", k!"BswImplementation", k!"ImplementationDataType", k!"ClientServerInterface", k!"ApplicationSwComponentType", k!"EcuAbstractionSwComponentType", k!"ApplicationArrayDataType", k!"SwRecordLayout", k!"SwAddrMethod", k!"TriggerInterface", k!"ServiceSwComponentType", k!"SensorActuatorSwComponentType", k!"NvBlockSwComponentType", k!"ServiceProxySwComponentType", k!"DataTypeMappingSet", k!"ModeDeclarationGroup", k!"ModeSwitchInterface", k!"SwcTiming", k!"LinUnconditionalFrame", k!"NmConfig", k!"NmPdu", k!"NPdu", k!"DcmIPdu", k!"SecuredIPdu", k!"CanTpConfig", k!"LinTpConfig", k!"LinCluster", k!"CanCluster", k!"CanFrame", k!"Gateway", k!"ISignal", k!"System", k!"EcuInstance", k!"ISignalIPdu", k!"SystemSignal", k!"SignalServiceTranslationPropsSet", k!"ParameterInterface", k!"NvDataInterface", k!"GenericEthernetFrame", k!"LifeCycleInfoSet", k!"PhysicalDimension", k!"FlatMap", k!"PortInterfaceMappingSet", k!"EthernetCluster", k!"ISignalIPduGroup", k!"DiagnosticConnection", k!"DiagnosticServiceTable", k!"Documentation", k!"MultiplexedIPdu", k!"UserDefinedIPdu", k!"UserDefinedPdu", k!"GeneralPurposePdu", k!"GeneralPurposeIPdu", k!"SecureCommunicationPropsSet", k!"SoAdRoutingGroup", k!"DoIpTpConfig", k!"HwElement", k!"HwCategory", k!"HwType", k!"DataTransformationSet", k!"E2EProfileCompatibilityProps", k!"FlexrayFrame", k!"ISignalGroup", k!"SystemSignalGroup"], k!"writeFlexrayCluster_FlexrayCluster"⟩,
      ⟨[(false, [k!"Collection"])], [k!"ARPackage", k!"ComplexDeviceDriverSwComponentType", k!"SwcImplementation", k!"CompositionSwComponentType", k!"ApplicationPrimitiveDataType", k!"ApplicationRecordDataType", k!"SwBaseType", k!"CompuMethod", k!"ConstantSpecification", k!"DataConstr", k!"EndToEndProtectionSet", k!"SenderReceiverInterface", k!"Unit", k!"BswModuleDescription", k!"BswModuleEntry", k!"SwcBswMapping", k!"BswImplementation", k!"ImplementationDataType", k!"ClientServerInterface", k!"ApplicationSwComponentType", k!"EcuAbstractionSwComponentType", k!"ApplicationArrayDataType", k!"SwRecordLayout", k!"SwAddrMethod", k!"TriggerInterface", k!"ServiceSwComponentType", k!"SensorActuatorSwComponentType", k!"NvBlockSwComponentType", k!"ServiceProxySwComponentType", k!"DataTypeMappingSet", k!"ModeDeclarationGroup", k!"ModeSwitchInterface", k!"SwcTiming", k!"LinUnconditionalFrame", k!"NmConfig", k!"NmPdu", k!"NPdu", k!"DcmIPdu", k!"SecuredIPdu", k!"CanTpConfig", k!"LinTpConfig", k!"LinCluster", k!"CanCluster", k!"CanFrame", k!"Gateway", k!"ISignal", k!"System", k!"EcuInstance", k!"ISignalIPdu", k!"SystemSignal", k!"SignalServiceTranslationPropsSet", k!"ParameterInterface", k!"NvDataInterface", k!"GenericEthernetFrame", k!"LifeCycleInfoSet", k!"PhysicalDimension", k!"FlatMap", k!"PortInterfaceMappingSet", k!"EthernetCluster", k!"ISignalIPduGroup", k!"DiagnosticConnection", k!"DiagnosticServiceTable", k!"Documentation", k!"MultiplexedIPdu", k!"UserDefinedIPdu", k!"UserDefinedPdu", k!"GeneralPurposePdu", k!"GeneralPurposeIPdu", k!"SecureCommunicationPropsSet", k!"SoAdRoutingGroup", k!"DoIpTpConfig", k!"HwElement", k!"HwCategory", k!"HwType", k!"DataTransformationSet", k!"E2EProfileCompatibilityProps", k!"FlexrayFrame", k!"ISignalGroup", k!"SystemSignalGroup", k!"FlexrayCluster"], k!"writeCollection_Collection"⟩,
      ⟨[(false, [k!"KeywordSet"])], [k!"ARPackage", k!"ComplexDeviceDriverSwComponentType", k!"SwcImplementation", k!"CompositionSwComponentType", k!"ApplicationPrimitiveDataType", k!"ApplicationRecordDataType", k!"SwBaseType", k!"CompuMethod", k!"ConstantSpecification", k!"DataConstr", k!"EndToEndProtectionSet", k!"SenderReceiverInterface", k!"Unit", k!"BswModuleDescription", k!"BswModuleEntry", k!"SwcBswMapping", k!"BswImplementation", k!"ImplementationDataType", k!"ClientServerInterface", k!"ApplicationSwComponentType", k!"EcuAbstractionSwComponentType", k!"ApplicationArrayDataType", k!"SwRecordLayout", k!"SwAddrMethod", k!"TriggerInterface", k!"ServiceSwComponentType", k!"SensorActuatorSwComponentType", k!"NvBlockSwComponentType", k!"ServiceProxySwComponentType", k!"DataTypeMappingSet", k!"ModeDeclarationGroup", k!"ModeSwitchInterface", k!"SwcTiming", k!"LinUnconditionalFrame", k!"NmConfig", k!"NmPdu", k!"NPdu", k!"DcmIPdu", k!"SecuredIPdu", k!"CanTpConfig", k!"LinTpConfig", k!"LinCluster", k!"CanCluster", k!"CanFrame", k!"Gateway", k!"ISignal", k!"System", k!"EcuInstance", k!"ISignalIPdu", k!"SystemSignal", k!"SignalServiceTranslationPropsSet", k!"ParameterInterface", k!"NvDataInterface", k!"GenericEthernetFrame", k!"LifeCycleInfoSet", k!"PhysicalDimension", k!"FlatMap", k!"PortInterfaceMappingSet", k!"EthernetCluster", k!"ISignalIPduGroup", k!"DiagnosticConnection", k!"DiagnosticServiceTable", k!"Documentation", k!"MultiplexedIPdu", k!"UserDefinedIPdu", k!"UserDefinedPdu", k!"GeneralPurposePdu", k!"GeneralPurposeIPdu", k!"SecureCommunicationPropsSet", k!"SoAdRoutingGroup", k!"DoIpTpConfig", k!"HwElement", k!"HwCategory", k!"HwType", k!"DataTransformationSet", k!"E2EProfileCompatibilityProps", k!"FlexrayFrame", k!"ISignalGroup", k!"SystemSignalGroup", k!"FlexrayCluster", k!"Collection"], k!"writeKeywordSet_KeywordSet"⟩,
      ⟨[(false, [k!"PortPrototypeBlueprint"])], [k!"ARPackage", k!"ComplexDeviceDriverSwComponentType", k!"SwcImplementation", k!"CompositionSwComponentType", k!"ApplicationPrimitiveDataType", k!"ApplicationRecordDataType", k!"SwBaseType", k!"CompuMethod", k!"ConstantSpecification", k!"DataConstr", k!"EndToEndProtectionSet", k!"SenderReceiverInterface", k!"Unit", k!"BswModuleDescription", k!"BswModuleEntry", k!"SwcBswMapping", k!"BswImplementation", k!"ImplementationDataType", k!"ClientServerInterface", k!"ApplicationSwComponentType", k!"EcuAbstractionSwComponentType", k!"ApplicationArrayDataType", k!"SwRecordLayout", k!"SwAddrMethod", k!"TriggerInterface", k!"ServiceSwComponentType", k!"SensorActuatorSwComponentType", k!"NvBlockSwComponentType", k!"ServiceProxySwComponentType", k!"DataTypeMappingSet", k!"ModeDeclarationGroup", k!"ModeSwitchInterface", k!"SwcTiming", k!"LinUnconditionalFrame", k!"NmConfig", k!"NmPdu", k!"NPdu", k!"DcmIPdu", k!"SecuredIPdu", k!"CanTpConfig", k!"LinTpConfig", k!"LinCluster", k!"CanCluster", k!"CanFrame", k!"Gateway", k!"ISignal", k!"System", k!"EcuInstance", k!"ISignalIPdu", k!"SystemSignal", k!"SignalServiceTranslationPropsSet", k!"ParameterInterface", k!"NvDataInterface", k!"GenericEthernetFrame", k!"LifeCycleInfoSet", k!"PhysicalDimension", k!"FlatMap", k!"PortInterfaceMappingSet", k!"EthernetCluster", k!"ISignalIPduGroup", k!"DiagnosticConnection", k!"DiagnosticServiceTable", k!"Documentation", k!"MultiplexedIPdu", k!"UserDefinedIPdu", k!"UserDefinedPdu", k!"GeneralPurposePdu", k!"GeneralPurposeIPdu", k!"SecureCommunicationPropsSet", k!"SoAdRoutingGroup", k!"DoIpTpConfig", k!"HwElement", k!"HwCategory", k!"HwType", k!"DataTransformationSet", k!"E2EProfileCompatibilityProps", k!"FlexrayFrame", k!"ISignalGroup", k!"SystemSignalGroup", k!"FlexrayCluster", k!"Collection", k!"KeywordSet"], k!"writePortPrototypeBlueprint_PortPrototypeBlueprint"⟩,
      ⟨[(false, [k!"ModeDeclarationMappingSet"])], [k!"ARPackage", k!"ComplexDeviceDriverSwComponentType", k!"SwcImplementation", k!"CompositionSwComponentType", k!"ApplicationPrimitiveDataType", k!"ApplicationRecordDataType", k!"SwBaseType", k!"CompuMethod", k!"ConstantSpecification", k!"DataConstr", k!"EndToEndProtectionSet", k!"SenderReceiverInterface", k!"Unit", k!"BswModuleDescription", k!"BswModuleEntry", k!"SwcBswMapping", k!"BswImplementation", k!"ImplementationDataType", k!"ClientServerInterface", k!"ApplicationSwComponentType", k!"EcuAbstractionSwComponentType", k!"ApplicationArrayDataType", k!"SwRecordLayout", k!"SwAddrMethod", k!"TriggerInterface", k!"ServiceSwComponentType", k!"SensorActuatorSwComponentType", k!"NvBlockSwComponentType", k!"ServiceProxySwComponentType", k!"DataTypeMappingSet", k!"ModeDeclarationGroup", k!"ModeSwitchInterface", k!"SwcTiming", k!"LinUnconditionalFrame", k!"NmConfig", k!"NmPdu", k!"NPdu", k!"DcmIPdu", k!"SecuredIPdu", k!"CanTpConfig", k!"LinTpConfig", k!"LinCluster", k!"CanCluster", k!"CanFrame", k!"Gateway", k!"ISignal", k!"System", k!"EcuInstance", k!"ISignalIPdu", k!"SystemSignal", k!"SignalServiceTranslationPropsSet", k!"ParameterInterface", k!"NvDataInterface", k!"GenericEthernetFrame", k!"LifeCycleInfoSet", k!"PhysicalDimension", k!"FlatMap", k!"PortInterfaceMappingSet", k!"EthernetCluster", k!"ISignalIPduGroup", k!"DiagnosticConnection", k!"DiagnosticServiceTable", k!"Documentation", k!"MultiplexedIPdu", k!"UserDefinedIPdu", k!"UserDefinedPdu", k!"GeneralPurposePdu", k!"GeneralPurposeIPdu", k!"SecureCommunicationPropsSet", k!"SoAdRoutingGroup", k!"DoIpTpConfig", k!"HwElement", k!"HwCategory", k!"HwType", k!"DataTransformationSet", k!"E2EProfileCompatibilityProps", k!"FlexrayFrame", k!"ISignalGroup", k!"SystemSignalGroup", k!"FlexrayCluster", k!"Collection", k!"KeywordSet", k!"PortPrototypeBlueprint"], k!"writeModeDeclarationMappingSet_ModeDeclarationMappingSet"⟩,
      ⟨[(false, [k!"EcucModuleDef"])], [k!"ARPackage", k!"ComplexDeviceDriverSwComponentType", k!"SwcImplementation", k!"CompositionSwComponentType", k!"ApplicationPrimitiveDataType", k!"ApplicationRecordDataType", k!"SwBaseType", k!"CompuMethod", k!"ConstantSpecification", k!"DataConstr", k!"EndToEndProtectionSet", k!"SenderReceiverInterface", k!"Unit", k!"BswModuleDescription", k!"BswModuleEntry", k!"SwcBswMapping", k!"BswImplementation", k!"ImplementationDataType", k!"ClientServerInterface", k!"ApplicationSwComponentType", k!"EcuAbstractionSwComponentType", k!"ApplicationArrayDataType", k!"SwRecordLayout", k!"SwAddrMethod", k!"TriggerInterface", k!"ServiceSwComponentType", k!"SensorActuatorSwComponentType", k!"NvBlockSwComponentType", k!"ServiceProxySwComponentType", k!"DataTypeMappingSet", k!"ModeDeclarationGroup", k!"ModeSwitchInterface", k!"SwcTiming", k!"LinUnconditionalFrame", k!"NmConfig", k!"NmPdu", k!"NPdu", k!"DcmIPdu", k!"SecuredIPdu", k!"CanTpConfig", k!"LinTpConfig", k!"LinCluster", k!"CanCluster", k!"CanFrame", k!"Gateway", k!"ISignal", k!"System", k!"EcuInstance", k!"ISignalIPdu", k!"SystemSignal", k!"SignalServiceTranslationPropsSet", k!"ParameterInterface", k!"NvDataInterface", k!"GenericEthernetFrame", k!"LifeCycleInfoSet", k!"PhysicalDimension", k!"FlatMap", k!"PortInterfaceMappingSet", k!"EthernetCluster", k!"ISignalIPduGroup", k!"DiagnosticConnection", k!"DiagnosticServiceTable", k!"Documentation", k!"MultiplexedIPdu", k!"UserDefinedIPdu", k!"UserDefinedPdu", k!"GeneralPurposePdu", k!"GeneralPurposeIPdu", k!"SecureCommunicationPropsSet", k!"SoAdRoutingGroup", k!"DoIpTpConfig", k!"HwElement", k!"HwCategory", k!"HwType", k!"DataTransformationSet", k!"E2EProfileCompatibilityProps", k!"FlexrayFrame", k!"ISignalGroup", k!"SystemSignalGroup", k!"FlexrayCluster", k!"Collection", k!"KeywordSet", k!"PortPrototypeBlueprint", k!"ModeDeclarationMappingSet"], k!"writeEcucModuleDef_EcucModuleDef"⟩,
      ⟨[(false, [k!"EcucDefinitionCollection"])], [k!"ARPackage", k!"ComplexDeviceDriverSwComponentType", k!"SwcImplementation", k!"CompositionSwComponentType", k!"ApplicationPrimitiveDataType", k!"ApplicationRecordDataType", k!"SwBaseType", k!"CompuMethod", k!"ConstantSpecification", k!"DataConstr", k!"EndToEndProtectionSet", k!"SenderReceiverInterface", k!"Unit", k!"BswModuleDescription", k!"BswModuleEntry", k!"SwcBswMapping", k!"BswImplementation", k!"ImplementationDataType", k!"ClientServerInterface", k!"ApplicationSwComponentType", k!"EcuAbstractionSwComponentType", k!"ApplicationArrayDataType", k!"SwRecordLayout", k!"SwAddrMethod", k!"TriggerInterface", k!"ServiceSwComponentType", k!"SensorActuatorSwComponentType", k!"NvBlockSwComponentType", k!"ServiceProxySwComponentType", k!"DataTypeMappingSet", k!"ModeDeclarationGroup", k!"ModeSwitchInterface", k!"SwcTiming", k!"LinUnconditionalFrame", k!"NmConfig", k!"NmPdu", k!"NPdu", k!"DcmIPdu", k!"SecuredIPdu", k!"CanTpConfig", k!"LinTpConfig", k!"LinCluster", k!"CanCluster", k!"CanFrame", k!"Gateway", k!"ISignal", k!"System", k!"EcuInstance", k!"ISignalIPdu", k!"SystemSignal", k!"SignalServiceTranslationPropsSet", k!"ParameterInterface", k!"NvDataInterface", k!"GenericEthernetFrame", k!"LifeCycleInfoSet", k!"PhysicalDimension", k!"FlatMap", k!"PortInterfaceMappingSet", k!"EthernetCluster", k!"ISignalIPduGroup", k!"DiagnosticConnection", k!"DiagnosticServiceTable", k!"Documentation", k!"MultiplexedIPdu", k!"UserDefinedIPdu", k!"UserDefinedPdu", k!"GeneralPurposePdu", k!"GeneralPurposeIPdu", k!"SecureCommunicationPropsSet", k!"SoAdRoutingGroup", k!"DoIpTpConfig", k!"HwElement", k!"HwCategory", k!"HwType", k!"DataTransformationSet", k!"E2EProfileCompatibilityProps", k!"FlexrayFrame", k!"ISignalGroup", k!"SystemSignalGroup", k!"FlexrayCluster", k!"Collection", k!"KeywordSet", k!"PortPrototypeBlueprint", k!"ModeDeclarationMappingSet", k!"EcucModuleDef"], k!"writeEcucDefinitionCollection_EcucDefinitionCollection"⟩,
      ⟨[(false, [k!"EcucDestinationUriDefSet"])], [k!"ARPackage", k!"ComplexDeviceDriverSwComponentType", k!"SwcImplementation", k!"CompositionSwComponentType", k!"ApplicationPrimitiveDataType", k!"ApplicationRecordDataType", k!"SwBaseType", k!"CompuMethod", k!"ConstantSpecification", k!"DataConstr", k!"EndToEndProtectionSet", k!"SenderReceiverInterface", k!"Unit", k!"BswModuleDescription", k!"BswModuleEntry", k!"SwcBswMapping", k!"BswImplementation", k!"ImplementationDataType", k!"ClientServerInterface", k!"ApplicationSwComponentType", k!"EcuAbstractionSwComponentType", k!"ApplicationArrayDataType", k!"SwRecordLayout", k!"SwAddrMethod", k!"TriggerInterface", k!"ServiceSwComponentType", k!"SensorActuatorSwComponentType", k!"NvBlockSwComponentType", k!"ServiceProxySwComponentType", k!"DataTypeMappingSet", k!"ModeDeclarationGroup", k!"ModeSwitchInterface", k!"SwcTiming", k!"LinUnconditionalFrame", k!"NmConfig", k!"NmPdu", k!"NPdu", k!"DcmIPdu", k!"SecuredIPdu", k!"CanTpConfig", k!"LinTpConfig", k!"LinCluster", k!"CanCluster", k!"CanFrame", k!"Gateway", k!"ISignal", k!"System", k!"EcuInstance", k!"ISignalIPdu", k!"SystemSignal", k!"SignalServiceTranslationPropsSet", k!"ParameterInterface", k!"NvDataInterface", k!"GenericEthernetFrame", k!"LifeCycleInfoSet", k!"PhysicalDimension", k!"FlatMap", k!"PortInterfaceMappingSet", k!"EthernetCluster", k!"ISignalIPduGroup", k!"DiagnosticConnection", k!"DiagnosticServiceTable", k!"Documentation", k!"MultiplexedIPdu", k!"UserDefinedIPdu", k!"UserDefinedPdu", k!"GeneralPurposePdu", k!"GeneralPurposeIPdu", k!"SecureCommunicationPropsSet", k!"SoAdRoutingGroup", k!"DoIpTpConfig", k!"HwElement", k!"HwCategory", k!"HwType", k!"DataTransformationSet", k!"E2EProfileCompatibilityProps", k!"FlexrayFrame", k!"ISignalGroup", k!"SystemSignalGroup", k!"FlexrayCluster", k!"Collection", k!"KeywordSet", k!"PortPrototypeBlueprint", k!"ModeDeclarationMappingSet", k!"EcucModuleDef", k!"EcucDefinitionCollection"], k!"writeEcucDestinationUriDefSet_EcucDestinationUriDefSet"⟩,
      ⟨[(false, [k!"EcucModuleConfigurationValues"])], [k!"ARPackage", k!"ComplexDeviceDriverSwComponentType", k!"SwcImplementation", k!"CompositionSwComponentType", k!"ApplicationPrimitiveDataType", k!"ApplicationRecordDataType", k!"SwBaseType", k!"CompuMethod", k!"ConstantSpecification", k!"DataConstr", k!"EndToEndProtectionSet", k!"SenderReceiverInterface", k!"Unit", k!"BswModuleDescription", k!"BswModuleEntry", k!"SwcBswMapping", k!"BswImplementation", k!"ImplementationDataType", k!"ClientServerInterface", k!"ApplicationSwComponentType", k!"EcuAbstractionSwComponentType", k!"ApplicationArrayDataType", k!"SwRecordLayout", k!"SwAddrMethod", k!"TriggerInterface", k!"ServiceSwComponentType", k!"SensorActuatorSwComponentType", k!"NvBlockSwComponentType", k!"ServiceProxySwComponentType", k!"DataTypeMappingSet", k!"ModeDeclarationGroup", k!"ModeSwitchInterface", k!"SwcTiming", k!"LinUnconditionalFrame", k!"NmConfig", k!"NmPdu", k!"NPdu", k!"DcmIPdu", k!"SecuredIPdu", k!"CanTpConfig", k!"LinTpConfig", k!"LinCluster", k!"CanCluster", k!"CanFrame", k!"Gateway", k!"ISignal", k!"System", k!"EcuInstance", k!"ISignalIPdu", k!"SystemSignal", k!"SignalServiceTranslationPropsSet", k!"ParameterInterface", k!"NvDataInterface", k!"GenericEthernetFrame", k!"LifeCycleInfoSet", k!"PhysicalDimension", k!"FlatMap", k!"PortInterfaceMappingSet", k!"EthernetCluster", k!"ISignalIPduGroup", k!"DiagnosticConnection", k!"DiagnosticServiceTable", k!"Documentation", k!"MultiplexedIPdu", k!"UserDefinedIPdu", k!"UserDefinedPdu", k!"GeneralPurposePdu", k!"GeneralPurposeIPdu", k!"SecureCommunicationPropsSet", k!"SoAdRoutingGroup", k!"DoIpTpConfig", k!"HwElement", k!"HwCategory", k!"HwType", k!"DataTransformationSet", k!"E2EProfileCompatibilityProps", k!"FlexrayFrame", k!"ISignalGroup", k!"SystemSignalGroup", k!"FlexrayCluster", k!"Collection", k!"KeywordSet", k!"PortPrototypeBlueprint", k!"ModeDeclarationMappingSet", k!"EcucModuleDef", k!"EcucDefinitionCollection", k!"EcucDestinationUriDefSet"], k!"writeEcucModuleConfigurationValues_EcucModuleConfigurationValues"⟩,
      ⟨[(false, [k!"SwSystemconst"])], [k!"ARPackage", k!"ComplexDeviceDriverSwComponentType", k!"SwcImplementation", k!"CompositionSwComponentType", k!"ApplicationPrimitiveDataType", k!"ApplicationRecordDataType", k!"SwBaseType", k!"CompuMethod", k!"ConstantSpecification", k!"DataConstr", k!"EndToEndProtectionSet", k!"SenderReceiverInterface", k!"Unit", k!"BswModuleDescription", k!"BswModuleEntry", k!"SwcBswMapping", k!"BswImplementation", k!"ImplementationDataType", k!"ClientServerInterface", k!"ApplicationSwComponentType", k!"EcuAbstractionSwComponentType", k!"ApplicationArrayDataType", k!"SwRecordLayout", k!"SwAddrMethod", k!"TriggerInterface", k!"ServiceSwComponentType", k!"SensorActuatorSwComponentType", k!"NvBlockSwComponentType", k!"ServiceProxySwComponentType", k!"DataTypeMappingSet", k!"ModeDeclarationGroup", k!"ModeSwitchInterface", k!"SwcTiming", k!"LinUnconditionalFrame", k!"NmConfig", k!"NmPdu", k!"NPdu", k!"DcmIPdu", k!"SecuredIPdu", k!"CanTpConfig", k!"LinTpConfig", k!"LinCluster", k!"CanCluster", k!"CanFrame", k!"Gateway", k!"ISignal", k!"System", k!"EcuInstance", k!"ISignalIPdu", k!"SystemSignal", k!"SignalServiceTranslationPropsSet", k!"ParameterInterface", k!"NvDataInterface", k!"GenericEthernetFrame", k!"LifeCycleInfoSet", k!"PhysicalDimension", k!"FlatMap", k!"PortInterfaceMappingSet", k!"EthernetCluster", k!"ISignalIPduGroup", k!"DiagnosticConnection", k!"DiagnosticServiceTable", k!"Documentation", k!"MultiplexedIPdu", k!"UserDefinedIPdu", k!"UserDefinedPdu", k!"GeneralPurposePdu", k!"GeneralPurposeIPdu", k!"SecureCommunicationPropsSet", k!"SoAdRoutingGroup", k!"DoIpTpConfig", k!"HwElement", k!"HwCategory", k!"HwType", k!"DataTransformationSet", k!"E2EProfileCompatibilityProps", k!"FlexrayFrame", k!"ISignalGroup", k!"SystemSignalGroup", k!"FlexrayCluster", k!"Collection", k!"KeywordSet", k!"PortPrototypeBlueprint", k!"ModeDeclarationMappingSet", k!"EcucModuleDef", k!"EcucDefinitionCollection", k!"EcucDestinationUriDefSet", k!"EcucModuleConfigurationValues"], k!"writeSwSystemconst_SwSystemconst"⟩,
      ⟨[(false, [k!"SwSystemconstantValueSet"])], [k!"ARPackage", k!"ComplexDeviceDriverSwComponentType", k!"SwcImplementation", k!"CompositionSwComponentType", k!"ApplicationPrimitiveDataType", k!"ApplicationRecordDataType", k!"SwBaseType", k!"CompuMethod", k!"ConstantSpecification", k!"DataConstr", k!"EndToEndProtectionSet", k!"SenderReceiverInterface", k!"Unit", k!"BswModuleDescription", k!"BswModuleEntry", k!"SwcBswMapping", k!"BswImplementation", k!"ImplementationDataType", k!"ClientServerInterface", k!"ApplicationSwComponentType", k!"EcuAbstractionSwComponentType", k!"ApplicationArrayDataType", k!"SwRecordLayout", k!"SwAddrMethod", k!"TriggerInterface", k!"ServiceSwComponentType", k!"SensorActuatorSwComponentType", k!"NvBlockSwComponentType", k!"ServiceProxySwComponentType", k!"DataTypeMappingSet", k!"ModeDeclarationGroup", k!"ModeSwitchInterface", k!"SwcTiming", k!"LinUnconditionalFrame", k!"NmConfig", k!"NmPdu", k!"NPdu", k!"DcmIPdu", k!"SecuredIPdu", k!"CanTpConfig", k!"LinTpConfig", k!"LinCluster", k!"CanCluster", k!"CanFrame", k!"Gateway", k!"ISignal", k!"System", k!"EcuInstance", k!"ISignalIPdu", k!"SystemSignal", k!"SignalServiceTranslationPropsSet", k!"ParameterInterface", k!"NvDataInterface", k!"GenericEthernetFrame", k!"LifeCycleInfoSet", k!"PhysicalDimension", k!"FlatMap", k!"PortInterfaceMappingSet", k!"EthernetCluster", k!"ISignalIPduGroup", k!"DiagnosticConnection", k!"DiagnosticServiceTable", k!"Documentation", k!"MultiplexedIPdu", k!"UserDefinedIPdu", k!"UserDefinedPdu", k!"GeneralPurposePdu", k!"GeneralPurposeIPdu", k!"SecureCommunicationPropsSet", k!"SoAdRoutingGroup", k!"DoIpTpConfig", k!"HwElement", k!"HwCategory", k!"HwType", k!"DataTransformationSet", k!"E2EProfileCompatibilityProps", k!"FlexrayFrame", k!"ISignalGroup", k!"SystemSignalGroup", k!"FlexrayCluster", k!"Collection", k!"KeywordSet", k!"PortPrototypeBlueprint", k!"ModeDeclarationMappingSet", k!"EcucModuleDef", k!"EcucDefinitionCollection", k!"EcucDestinationUriDefSet", k!"EcucModuleConfigurationValues", k!"SwSystemconst"], k!"writeSwSystemconstantValueSet_SwSystemconstantValueSet"⟩,
      ⟨[(false, [k!"PredefinedVariant"])], [k!"ARPackage", k!"ComplexDeviceDriverSwComponentType", k!"SwcImplementation", k!"CompositionSwComponentType", k!"ApplicationPrimitiveDataType", k!"ApplicationRecordDataType", k!"SwBaseType", k!"CompuMethod", k!"ConstantSpecification", k!"DataConstr", k!"EndToEndProtectionSet", k!"SenderReceiverInterface", k!"Unit", k!"BswModuleDescription", k!"BswModuleEntry", k!"SwcBswMapping", k!"BswImplementation", k!"ImplementationDataType", k!"ClientServerInterface", k!"ApplicationSwComponentType", k!"EcuAbstractionSwComponentType", k!"ApplicationArrayDataType", k!"SwRecordLayout", k!"SwAddrMethod", k!"TriggerInterface", k!"ServiceSwComponentType", k!"SensorActuatorSwComponentType", k!"NvBlockSwComponentType", k!"ServiceProxySwComponentType", k!"DataTypeMappingSet", k!"ModeDeclarationGroup", k!"ModeSwitchInterface", k!"SwcTiming", k!"LinUnconditionalFrame", k!"NmConfig", k!"NmPdu", k!"NPdu", k!"DcmIPdu", k!"SecuredIPdu", k!"CanTpConfig", k!"LinTpConfig", k!"LinCluster", k!"CanCluster", k!"CanFrame", k!"Gateway", k!"ISignal", k!"System", k!"EcuInstance", k!"ISignalIPdu", k!"SystemSignal", k!"SignalServiceTranslationPropsSet", k!"ParameterInterface", k!"NvDataInterface", k!"GenericEthernetFrame", k!"LifeCycleInfoSet", k!"PhysicalDimension", k!"FlatMap", k!"PortInterfaceMappingSet", k!"EthernetCluster", k!"ISignalIPduGroup", k!"DiagnosticConnection", k!"DiagnosticServiceTable", k!"Documentation", k!"MultiplexedIPdu", k!"UserDefinedIPdu", k!"UserDefinedPdu", k!"GeneralPurposePdu", k!"GeneralPurposeIPdu", k!"SecureCommunicationPropsSet", k!"SoAdRoutingGroup", k!"DoIpTpConfig", k!"HwElement", k!"HwCategory", k!"HwType", k!"DataTransformationSet", k!"E2EProfileCompatibilityProps", k!"FlexrayFrame", k!"ISignalGroup", k!"SystemSignalGroup", k!"FlexrayCluster", k!"Collection", k!"KeywordSet", k!"PortPrototypeBlueprint", k!"ModeDeclarationMappingSet", k!"EcucModuleDef", k!"EcucDefinitionCollection", k!"EcucDestinationUriDefSet", k!"EcucModuleConfigurationValues", k!"SwSystemconst", k!"SwSystemconstantValueSet"], k!"writePredefinedVariant_PredefinedVariant"⟩,
      ⟨[(false, [k!"PostBuildVariantCriterion"])], [k!"ARPackage", k!"ComplexDeviceDriverSwComponentType", k!"SwcImplementation", k!"CompositionSwComponentType", k!"ApplicationPrimitiveDataType", k!"ApplicationRecordDataType", k!"SwBaseType", k!"CompuMethod", k!"ConstantSpecification", k!"DataConstr", k!"EndToEndProtectionSet", k!"SenderReceiverInterface", k!"Unit", k!"BswModuleDescription", k!"BswModuleEntry", k!"SwcBswMapping", k!"BswImplementation", k!"ImplementationDataType", k!"ClientServerInterface", k!"ApplicationSwComponentType", k!"EcuAbstractionSwComponentType", k!"ApplicationArrayDataType", k!"SwRecordLayout", k!"SwAddrMethod", k!"TriggerInterface", k!"ServiceSwComponentType", k!"SensorActuatorSwComponentType", k!"NvBlockSwComponentType", k!"ServiceProxySwComponentType", k!"DataTypeMappingSet", k!"ModeDeclarationGroup", k!"ModeSwitchInterface", k!"SwcTiming", k!"LinUnconditionalFrame", k!"NmConfig", k!"NmPdu", k!"NPdu", k!"DcmIPdu", k!"SecuredIPdu", k!"CanTpConfig", k!"LinTpConfig", k!"LinCluster", k!"CanCluster", k!"CanFrame", k!"Gateway", k!"ISignal", k!"System", k!"EcuInstance", k!"ISignalIPdu", k!"SystemSignal", k!"SignalServiceTranslationPropsSet", k!"ParameterInterface", k!"NvDataInterface", k!"GenericEthernetFrame", k!"LifeCycleInfoSet", k!"PhysicalDimension", k!"FlatMap", k!"PortInterfaceMappingSet", k!"EthernetCluster", k!"ISignalIPduGroup", k!"DiagnosticConnection", k!"DiagnosticServiceTable", k!"Documentation", k!"MultiplexedIPdu", k!"UserDefinedIPdu", k!"UserDefinedPdu", k!"GeneralPurposePdu", k!"GeneralPurposeIPdu", k!"SecureCommunicationPropsSet", k!"SoAdRoutingGroup", k!"DoIpTpConfig", k!"HwElement", k!"HwCategory", k!"HwType", k!"DataTransformationSet", k!"E2EProfileCompatibilityProps", k!"FlexrayFrame", k!"ISignalGroup", k!"SystemSignalGroup", k!"FlexrayCluster", k!"Collection", k!"KeywordSet", k!"PortPrototypeBlueprint", k!"ModeDeclarationMappingSet", k!"EcucModuleDef", k!"EcucDefinitionCollection", k!"EcucDestinationUriDefSet", k!"EcucModuleConfigurationValues", k!"SwSystemconst", k!"SwSystemconstantValueSet", k!"PredefinedVariant"], k!"writePostBuildVariantCriterion_PostBuildVariantCriterion"⟩,
      ⟨[(false, [k!"McFunction"])], [k!"ARPackage", k!"ComplexDeviceDriverSwComponentType", k!"SwcImplementation", k!"CompositionSwComponentType", k!"ApplicationPrimitiveDataType", k!"ApplicationRecordDataType", k!"SwBaseType", k!"CompuMethod", k!"ConstantSpecification", k!"DataConstr", k!"EndToEndProtectionSet", k!"SenderReceiverInterface", k!"Unit", k!"BswModuleDescription", k!"BswModuleEntry", k!"SwcBswMapping", k!"BswImplementation", k!"ImplementationDataType", k!"ClientServerInterface", k!"ApplicationSwComponentType", k!"EcuAbstractionSwComponentType", k!"ApplicationArrayDataType", k!"SwRecordLayout", k!"SwAddrMethod", k!"TriggerInterface", k!"ServiceSwComponentType", k!"SensorActuatorSwComponentType", k!"NvBlockSwComponentType", k!"ServiceProxySwComponentType", k!"DataTypeMappingSet", k!"ModeDeclarationGroup", k!"ModeSwitchInterface", k!"SwcTiming", k!"LinUnconditionalFrame", k!"NmConfig", k!"NmPdu", k!"NPdu", k!"DcmIPdu", k!"SecuredIPdu", k!"CanTpConfig", k!"LinTpConfig", k!"LinCluster", k!"CanCluster", k!"CanFrame", k!"Gateway", k!"ISignal", k!"System", k!"EcuInstance", k!"ISignalIPdu", k!"SystemSignal", k!"SignalServiceTranslationPropsSet", k!"ParameterInterface", k!"NvDataInterface", k!"GenericEthernetFrame", k!"LifeCycleInfoSet", k!"PhysicalDimension", k!"FlatMap", k!"PortInterfaceMappingSet", k!"EthernetCluster", k!"ISignalIPduGroup", k!"DiagnosticConnection", k!"DiagnosticServiceTable", k!"Documentation", k!"MultiplexedIPdu", k!"UserDefinedIPdu", k!"UserDefinedPdu", k!"GeneralPurposePdu", k!"GeneralPurposeIPdu", k!"SecureCommunicationPropsSet", k!"SoAdRoutingGroup", k!"DoIpTpConfig", k!"HwElement", k!"HwCategory", k!"HwType", k!"DataTransformationSet", k!"E2EProfileCompatibilityProps", k!"FlexrayFrame", k!"ISignalGroup", k!"SystemSignalGroup", k!"FlexrayCluster", k!"Collection", k!"KeywordSet", k!"PortPrototypeBlueprint", k!"ModeDeclarationMappingSet", k!"EcucModuleDef", k!"EcucDefinitionCollection", k!"EcucDestinationUriDefSet", k!"EcucModuleConfigurationValues", k!"SwSystemconst", k!"SwSystemconstantValueSet", k!"PredefinedVariant", k!"PostBuildVariantCriterion"], k!"writeMcFunction_McFunction"⟩,
      ⟨[(false, [k!"McGroup"])], [k!"ARPackage", k!"ComplexDeviceDriverSwComponentType", k!"SwcImplementation", k!"CompositionSwComponentType", k!"ApplicationPrimitiveDataType", k!"ApplicationRecordDataType", k!"SwBaseType", k!"CompuMethod", k!"ConstantSpecification", k!"DataConstr", k!"EndToEndProtectionSet", k!"SenderReceiverInterface", k!"Unit", k!"BswModuleDescription", k!"BswModuleEntry", k!"SwcBswMapping", k!"BswImplementation", k!"ImplementationDataType", k!"ClientServerInterface", k!"ApplicationSwComponentType", k!"EcuAbstractionSwComponentType", k!"ApplicationArrayDataType", k!"SwRecordLayout", k!"SwAddrMethod", k!"TriggerInterface", k!"ServiceSwComponentType", k!"SensorActuatorSwComponentType", k!"NvBlockSwComponentType", k!"ServiceProxySwComponentType", k!"DataTypeMappingSet", k!"ModeDeclarationGroup", k!"ModeSwitchInterface", k!"SwcTiming", k!"LinUnconditionalFrame", k!"NmConfig", k!"NmPdu", k!"NPdu", k!"DcmIPdu", k!"SecuredIPdu", k!"CanTpConfig", k!"LinTpConfig", k!"LinCluster", k!"CanCluster", k!"CanFrame", k!"Gateway", k!"ISignal", k!"System", k!"EcuInstance", k!"ISignalIPdu", k!"SystemSignal", k!"SignalServiceTranslationPropsSet", k!"ParameterInterface", k!"NvDataInterface", k!"GenericEthernetFrame", k!"LifeCycleInfoSet", k!"PhysicalDimension", k!"FlatMap", k!"PortInterfaceMappingSet", k!"EthernetCluster", k!"ISignalIPduGroup", k!"DiagnosticConnection", k!"DiagnosticServiceTable", k!"Documentation", k!"MultiplexedIPdu", k!"UserDefinedIPdu", k!"UserDefinedPdu", k!"GeneralPurposePdu", k!"GeneralPurposeIPdu", k!"SecureCommunicationPropsSet", k!"SoAdRoutingGroup", k!"DoIpTpConfig", k!"HwElement", k!"HwCategory", k!"HwType", k!"DataTransformationSet", k!"E2EProfileCompatibilityProps", k!"FlexrayFrame", k!"ISignalGroup", k!"SystemSignalGroup", k!"FlexrayCluster", k!"Collection", k!"KeywordSet", k!"PortPrototypeBlueprint", k!"ModeDeclarationMappingSet", k!"EcucModuleDef", k!"EcucDefinitionCollection", k!"EcucDestinationUriDefSet", k!"EcucModuleConfigurationValues", k!"SwSystemconst", k!"SwSystemconstantValueSet", k!"PredefinedVariant", k!"PostBuildVariantCriterion", k!"McFunction"], k!"writeMcGroup_McGroup"⟩,
      ⟨[(false, [k!"DataPrototypeGroup"])], [k!"ARPackage", k!"ComplexDeviceDriverSwComponentType", k!"SwcImplementation", k!"CompositionSwComponentType", k!"ApplicationPrimitiveDataType", k!"ApplicationRecordDataType", k!"SwBaseType", k!"CompuMethod", k!"ConstantSpecification", k!"DataConstr", k!"EndToEndProtectionSet", k!"SenderReceiverInterface", k!"Unit", k!"BswModuleDescription", k!"BswModuleEntry", k!"SwcBswMapping", k!"BswImplementation", k!"ImplementationDataType", k!"ClientServerInterface", k!"ApplicationSwComponentType", k!"EcuAbstractionSwComponentType", k!"ApplicationArrayDataType", k!"SwRecordLayout", k!"SwAddrMethod", k!"TriggerInterface", k!"ServiceSwComponentType", k!"SensorActuatorSwComponentType", k!"NvBlockSwComponentType", k!"ServiceProxySwComponentType", k!"DataTypeMappingSet", k!"ModeDeclarationGroup", k!"ModeSwitchInterface", k!"SwcTiming", k!"LinUnconditionalFrame", k!"NmConfig", k!"NmPdu", k!"NPdu", k!"DcmIPdu", k!"SecuredIPdu", k!"CanTpConfig", k!"LinTpConfig", k!"LinCluster", k!"CanCluster", k!"CanFrame", k!"Gateway", k!"ISignal", k!"System", k!"EcuInstance", k!"ISignalIPdu", k!"SystemSignal", k!"SignalServiceTranslationPropsSet", k!"ParameterInterface", k!"NvDataInterface", k!"GenericEthernetFrame", k!"LifeCycleInfoSet", k!"PhysicalDimension", k!"FlatMap", k!"PortInterfaceMappingSet", k!"EthernetCluster", k!"ISignalIPduGroup", k!"DiagnosticConnection", k!"DiagnosticServiceTable", k!"Documentation", k!"MultiplexedIPdu", k!"UserDefinedIPdu", k!"UserDefinedPdu", k!"GeneralPurposePdu", k!"GeneralPurposeIPdu", k!"SecureCommunicationPropsSet", k!"SoAdRoutingGroup", k!"DoIpTpConfig", k!"HwElement", k!"HwCategory", k!"HwType", k!"DataTransformationSet", k!"E2EProfileCompatibilityProps", k!"FlexrayFrame", k!"ISignalGroup", k!"SystemSignalGroup", k!"FlexrayCluster", k!"Collection", k!"KeywordSet", k!"PortPrototypeBlueprint", k!"ModeDeclarationMappingSet", k!"EcucModuleDef", k!"EcucDefinitionCollection", k!"EcucDestinationUriDefSet", k!"EcucModuleConfigurationValues", k!"SwSystemconst", k!"SwSystemconstantValueSet", k!"PredefinedVariant", k!"PostBuildVariantCriterion", k!"McFunction", k!"McGroup"], k!"writeDataPrototypeGroup_DataPrototypeGroup"⟩,
      ⟨[(false, [k!"RunnableEntityGroup"])], [k!"ARPackage", k!"ComplexDeviceDriverSwComponentType", k!"SwcImplementation", k!"CompositionSwComponentType", k!"ApplicationPrimitiveDataType", k!"ApplicationRecordDataType", k!"SwBaseType", k!"CompuMethod", k!"ConstantSpecification", k!"DataConstr", k!"EndToEndProtectionSet", k!"SenderReceiverInterface", k!"Unit", k!"BswModuleDescription", k!"BswModuleEntry", k!"SwcBswMapping", k!"BswImplementation", k!"ImplementationDataType", k!"ClientServerInterface", k!"ApplicationSwComponentType", k!"EcuAbstractionSwComponentType", k!"ApplicationArrayDataType", k!"SwRecordLayout", k!"SwAddrMethod", k!"TriggerInterface", k!"ServiceSwComponentType", k!"SensorActuatorSwComponentType", k!"NvBlockSwComponentType", k!"ServiceProxySwComponentType", k!"DataTypeMappingSet", k!"ModeDeclarationGroup", k!"ModeSwitchInterface", k!"SwcTiming", k!"LinUnconditionalFrame", k!"NmConfig", k!"NmPdu", k!"NPdu", k!"DcmIPdu", k!"SecuredIPdu", k!"CanTpConfig", k!"LinTpConfig", k!"LinCluster", k!"CanCluster", k!"CanFrame", k!"Gateway", k!"ISignal", k!"System", k!"EcuInstance", k!"ISignalIPdu", k!"SystemSignal", k!"SignalServiceTranslationPropsSet", k!"ParameterInterface", k!"NvDataInterface", k!"GenericEthernetFrame", k!"LifeCycleInfoSet", k!"PhysicalDimension", k!"FlatMap", k!"PortInterfaceMappingSet", k!"EthernetCluster", k!"ISignalIPduGroup", k!"DiagnosticConnection", k!"DiagnosticServiceTable", k!"Documentation", k!"MultiplexedIPdu", k!"UserDefinedIPdu", k!"UserDefinedPdu", k!"GeneralPurposePdu", k!"GeneralPurposeIPdu", k!"SecureCommunicationPropsSet", k!"SoAdRoutingGroup", k!"DoIpTpConfig", k!"HwElement", k!"HwCategory", k!"HwType", k!"DataTransformationSet", k!"E2EProfileCompatibilityProps", k!"FlexrayFrame", k!"ISignalGroup", k!"SystemSignalGroup", k!"FlexrayCluster", k!"Collection", k!"KeywordSet", k!"PortPrototypeBlueprint", k!"ModeDeclarationMappingSet", k!"EcucModuleDef", k!"EcucDefinitionCollection", k!"EcucDestinationUriDefSet", k!"EcucModuleConfigurationValues", k!"SwSystemconst", k!"SwSystemconstantValueSet", k!"PredefinedVariant", k!"PostBuildVariantCriterion", k!"McFunction", k!"McGroup", k!"DataPrototypeGroup"], k!"writeRunnableEntityGroup_RunnableEntityGroup"⟩,
      ⟨[(false, [k!"ConsistencyNeeds"])], [k!"ARPackage", k!"ComplexDeviceDriverSwComponentType", k!"SwcImplementation", k!"CompositionSwComponentType", k!"ApplicationPrimitiveDataType", k!"ApplicationRecordDataType", k!"SwBaseType", k!"CompuMethod", k!"ConstantSpecification", k!"DataConstr", k!"EndToEndProtectionSet", k!"SenderReceiverInterface", k!"Unit", k!"BswModuleDescription", k!"BswModuleEntry", k!"SwcBswMapping", k!"BswImplementation", k!"ImplementationDataType", k!"ClientServerInterface", k!"ApplicationSwComponentType", k!"EcuAbstractionSwComponentType", k!"ApplicationArrayDataType", k!"SwRecordLayout", k!"SwAddrMethod", k!"TriggerInterface", k!"ServiceSwComponentType", k!"SensorActuatorSwComponentType", k!"NvBlockSwComponentType", k!"ServiceProxySwComponentType", k!"DataTypeMappingSet", k!"ModeDeclarationGroup", k!"ModeSwitchInterface", k!"SwcTiming", k!"LinUnconditionalFrame", k!"NmConfig", k!"NmPdu", k!"NPdu", k!"DcmIPdu", k!"SecuredIPdu", k!"CanTpConfig", k!"LinTpConfig", k!"LinCluster", k!"CanCluster", k!"CanFrame", k!"Gateway", k!"ISignal", k!"System", k!"EcuInstance", k!"ISignalIPdu", k!"SystemSignal", k!"SignalServiceTranslationPropsSet", k!"ParameterInterface", k!"NvDataInterface", k!"GenericEthernetFrame", k!"LifeCycleInfoSet", k!"PhysicalDimension", k!"FlatMap", k!"PortInterfaceMappingSet", k!"EthernetCluster", k!"ISignalIPduGroup", k!"DiagnosticConnection", k!"DiagnosticServiceTable", k!"Documentation", k!"MultiplexedIPdu", k!"UserDefinedIPdu", k!"UserDefinedPdu", k!"GeneralPurposePdu", k!"GeneralPurposeIPdu", k!"SecureCommunicationPropsSet", k!"SoAdRoutingGroup", k!"DoIpTpConfig", k!"HwElement", k!"HwCategory", k!"HwType", k!"DataTransformationSet", k!"E2EProfileCompatibilityProps", k!"FlexrayFrame", k!"ISignalGroup", k!"SystemSignalGroup", k!"FlexrayCluster", k!"Collection", k!"KeywordSet", k!"PortPrototypeBlueprint", k!"ModeDeclarationMappingSet", k!"EcucModuleDef", k!"EcucDefinitionCollection", k!"EcucDestinationUriDefSet", k!"EcucModuleConfigurationValues", k!"SwSystemconst", k!"SwSystemconstantValueSet", k!"PredefinedVariant", k!"PostBuildVariantCriterion", k!"McFunction", k!"McGroup", k!"DataPrototypeGroup", k!"RunnableEntityGroup"], k!"writeConsistencyNeeds_ConsistencyNeeds"⟩] .unsupported <|
    .nil) <|
  .nil

/-- `writeARPackage`, `writer/arxml_writer.py:9594-9601` -/
def writeARPackage_ARPackage : WB :=
  /- 9596 -/ .wrap .always k!"AR-PACKAGE" (
    /- 9598 -/ writeIdentifiable_ARPackage.app <|
    /- 9511 -/ .wrap (.any [(k!"referenceBases", [])]) k!"REFERENCE-BASES" (
      /- 9513 -/ .each k!"referenceBases" [] .plain [⟨[], [], k!"writeARPackage_ARPackage_L9513"⟩] .skip <|
      .nil) <|
    /- 9600 -/ writeARPackageElements_ARPackage.app <|
    /- 9613 -/ .wrap (.any [(k!"arPackages", [])]) k!"AR-PACKAGES" (
      /- 9616 -/ .each k!"arPackages" [] .sorted [⟨[(false, [k!"ARPackage"])], [], k!"writeARPackage_ARPackage"⟩] .unsupported <|
      .nil) <|
    .nil) <|
  .nil

/-- `writeARPackage`, `writer/arxml_writer.py:9594-9601` (the block at line 9513) -/
def writeARPackage_ARPackage_L9513 : WB :=
  /- 9513 -/ .wrap .always k!"REFERENCE-BASE" (
    /- 9514 -/ .prim k!"SHORT-LABEL" .lit k!"shortLabel" <|
    /- 9515 -/ .prim k!"IS-DEFAULT" .lit k!"isDefault" <|
    /- 9516 -/ .prim k!"IS-GLOBAL" .lit k!"isDefault" <|
    /- 9517 -/ .prim k!"BASE-IS-THIS-PACKAGE" .lit k!"BaseIsThisPackage" <|
    /- 9518 -/ .prim k!"PACKAGE-REF" .ref k!"packageRef" <|
    .nil) <|
  .nil

/-- `writeAbstractCanCluster`, `writer/arxml_writer.py:6823-6826` -/
def writeAbstractCanCluster_AbstractCanCluster : WB :=
  /- 6824 -/ .each k!"busOffRecovery" [] .plain [⟨[], [], k!"setCanClusterBusOffRecovery_BUS_OFF_RECOVERY_CanClusterBusOffRecovery"⟩] .skip <|
  /- 6825 -/ .prim k!"CAN-FD-BAUDRATE" .numerical k!"canFdBaudrate" <|
  /- 6826 -/ .prim k!"CAN-XL-BAUDRATE" .numerical k!"canXlBaudrate" <|
  .nil

/-- `writeAbstractCanCommunicationControllerAttributes`, `writer/arxml_writer.py:7595-7599` -/
def writeAbstractCanCommunicationControllerAttributes_AbstractCanCommunicationControllerAttributes : WB :=
  /- 7596 -/ .each k!"canControllerFdAttributes" [] .plain [⟨[], [], k!"setCanControllerFdConfiguration_CAN_CONTROLLER_FD_CONFIGURATION_CanControllerFdConfiguration"⟩] .skip <|
  /- 7597 -/ .each k!"canControllerFdRequirements" [] .plain [⟨[], [], k!"setCanControllerFdConfigurationRequirements_CAN_CONTROLLER_FD_REQUIREMENTS_CanControllerFdConfigurationRequirements"⟩] .skip <|
  /- 7598 -/ .each k!"canControllerXlAttributes" [] .plain [⟨[], [], k!"setCanControllerXlConfiguration_CAN_CONTROLLER_XL_CONFIGURATION_CanControllerXlConfiguration"⟩] .skip <|
  /- 7599 -/ .each k!"canControllerXlRequirements" [] .plain [⟨[], [], k!"setCanControllerXlConfigurationRequirements_CAN_CONTROLLER_XL_REQUIREMENTS_CanControllerXlConfigurationRequirements"⟩] .skip <|
  .nil

/-- `writeAbstractCanCommunicationControllerCanControllerAttributes`, `writer/arxml_writer.py:7612-7619` -/
def writeAbstractCanCommunicationControllerCanControllerAttributes_AbstractCanCommunicationController : WB :=
  /- 7615 -/ .wrap (.any [(k!"canControllerAttributes", [])]) k!"CAN-CONTROLLER-ATTRIBUTES" (
    /- 7617 -/ .each k!"canControllerAttributes" [] .plain [⟨[(false, [k!"CanControllerConfigurationRequirements"])], [], k!"writeCanControllerConfigurationRequirements_CanControllerConfigurationRequirements"⟩] .unsupported <|
    .nil) <|
  .nil

/-- `writeCommunicationController`, `writer/arxml_writer.py:7515-7516` -/
def writeCommunicationController_CommunicationController : WB :=
  /- 7516 -/ .prim k!"WAKE-UP-BY-CONTROLLER-SUPPORTED" .lit k!"wakeUpByControllerSupported" <|
  .nil

/-- `writeAbstractCanCommunicationController`, `writer/arxml_writer.py:7621-7623` -/
def writeAbstractCanCommunicationController_AbstractCanCommunicationController : WB :=
  /- 7622 -/ writeCommunicationController_CommunicationController.app <|
  /- 7623 -/ writeAbstractCanCommunicationControllerCanControllerAttributes_AbstractCanCommunicationController.app <|
  .nil

/-- `writeImplementationProps`, `writer/arxml_writer.py:5393-5395` -/
def writeImplementationProps_ImplementationProps : WB :=
  /- 5394 -/ writeReferrable_ARPackage.app <|
  /- 5395 -/ .prim k!"SYMBOL" .lit k!"symbol" <|
  .nil

/-- `writeExecutableEntityActivationReason`, `writer/arxml_writer.py:4729-4731` -/
def writeExecutableEntityActivationReason_ExecutableEntityActivationReason : WB :=
  /- 4730 -/ writeImplementationProps_ImplementationProps.app <|
  /- 4731 -/ .prim k!"BIT-POSITION" .numerical k!"bitPosition" <|
  .nil

/-- `writeActivationReasons`, `writer/arxml_writer.py:4719-4727` (the block at line 4725) -/
def writeActivationReasons_ExecutableEntity_L4725 : WB :=
  /- 4725 -/ .wrap .always k!"EXECUTABLE-ENTITY-ACTIVATION-REASON" (
    /- 4725 -/ writeExecutableEntityActivationReason_ExecutableEntityActivationReason.app <|
    .nil) <|
  .nil

/-- `writeExecutionTime`, `writer/arxml_writer.py:4082-4100` -/
def writeExecutionTime_AnalyzedExecutionTime : WB :=
  /- 4083 -/ writeIdentifiable_ARPackage.app <|
  /- 4084 -/ .prim k!"EXCLUSIVE-AREA-REF" .ref k!"exclusiveAreaRef" <|
  /- 4085 -/ .prim k!"EXECUTABLE-ENTITY-REF" .ref k!"executableEntityRef" <|
  /- 4086 -/ .each k!"hardwareConfiguration" [] .plain [⟨[], [], k!"setHardwareConfiguration_HardwareConfiguration"⟩] .skip <|
  /- 4087 -/ .prim k!"HW-ELEMENT-REF" .ref k!"hwElementRef" <|
  /- 4090 -/ .wrap (.any [(k!"includedLibraryRefs", [])]) k!"INCLUDED-LIBRARY-REFS" (
    /- 4092 -/ .prim k!"INCLUDED-LIBRARY-REF" .ref k!"includedLibraryRefs" <|
    .nil) <|
  /- 4095 -/ .wrap (.any [(k!"memorySectionLocations", [])]) k!"MEMORY-SECTION-LOCATIONS" (
    /- 4097 -/ .each k!"memorySectionLocations" [] .plain [⟨[], [], k!"writeExecutionTime_AnalyzedExecutionTime_L4097"⟩] .skip <|
    .nil) <|
  /- 4100 -/ .each k!"softwareContext" [] .plain [⟨[], [], k!"setSoftwareContext_SoftwareContext"⟩] .skip <|
  .nil

/-- `writeAnalyzedExecutionTime`, `writer/arxml_writer.py:4102-4106` -/
def writeAnalyzedExecutionTime_AnalyzedExecutionTime : WB :=
  /- 4103 -/ .wrap .always k!"ANALYZED-EXECUTION-TIME" (
    /- 4104 -/ writeExecutionTime_AnalyzedExecutionTime.app <|
    /- 4105 -/ .each k!"bestCaseExecutionTime" [] .plain [⟨[], [], k!"setMultidimensionalTime_BEST_CASE_EXECUTION_TIME_MultidimensionalTime"⟩] .skip <|
    /- 4106 -/ .each k!"worstCaseExecutionTime" [] .plain [⟨[], [], k!"setMultidimensionalTime_WORST_CASE_EXECUTION_TIME_MultidimensionalTime"⟩] .skip <|
    .nil) <|
  .nil

/-- `writeApplicationArrayDataType`, `writer/arxml_writer.py:5529-5534` -/
def writeApplicationArrayDataType_ApplicationArrayDataType : WB :=
  /- 5531 -/ .wrap .always k!"APPLICATION-ARRAY-DATA-TYPE" (
    /- 5532 -/ setApplicationCompositeDataType_ApplicationCompositeDataType.app <|
    /- 5533 -/ .prim k!"DYNAMIC-ARRAY-SIZE-PROFILE" .lit k!"dynamicArraySizeProfile" <|
    /- 5534 -/ .each k!"element" [] .plain [⟨[], [], k!"setApplicationArrayElement_ApplicationArrayElement"⟩] .skip <|
    .nil) <|
  .nil

/-- `writeApplicationError`, `writer/arxml_writer.py:5456-5460` -/
def writeApplicationError_ApplicationError : WB :=
  /- 5458 -/ .wrap .always k!"APPLICATION-ERROR" (
    /- 5459 -/ writeIdentifiable_ARPackage.app <|
    /- 5460 -/ .prim k!"ERROR-CODE" .numerical k!"errorCode" <|
    .nil) <|
  .nil

/-- `writeApplicationPrimitiveDataType`, `writer/arxml_writer.py:2199-2202` -/
def writeApplicationPrimitiveDataType_ApplicationPrimitiveDataType : WB :=
  /- 2201 -/ .wrap .always k!"APPLICATION-PRIMITIVE-DATA-TYPE" (
    /- 2202 -/ setApplicationDataType_ApplicationDataType.app <|
    .nil) <|
  .nil

/-- `writeApplicationRecordDataTypeElements`, `writer/arxml_writer.py:2216-2224` -/
def writeApplicationRecordDataTypeElements_ApplicationRecordDataType : WB :=
  /- 2219 -/ .wrap (.any [(k!"record_elements", [])]) k!"ELEMENTS" (
    /- 2222 -/ .each k!"record_elements" [] .plain [⟨[(false, [k!"ApplicationRecordElement"])], [], k!"writeApplicationRecordElement_ApplicationRecordElement"⟩] .unsupported <|
    .nil) <|
  .nil

/-- `writeApplicationRecordDataType`, `writer/arxml_writer.py:2226-2229` -/
def writeApplicationRecordDataType_ApplicationRecordDataType : WB :=
  /- 2227 -/ .wrap .always k!"APPLICATION-RECORD-DATA-TYPE" (
    /- 2228 -/ setApplicationDataType_ApplicationDataType.app <|
    /- 2229 -/ writeApplicationRecordDataTypeElements_ApplicationRecordDataType.app <|
    .nil) <|
  .nil

/-- `writeApplicationRecordElement`, `writer/arxml_writer.py:2212-2214` -/
def writeApplicationRecordElement_ApplicationRecordElement : WB :=
  /- 2213 -/ .wrap .always k!"APPLICATION-RECORD-ELEMENT" (
    /- 2214 -/ writeAutosarDataPrototype_AutosarDataPrototype.app <|
    .nil) <|
  .nil

/-- `writeApplicationRuleBasedValueSpecification`, `writer/arxml_writer.py:2382-2392` -/
def writeApplicationRuleBasedValueSpecification_ApplicationRuleBasedValueSpecification : WB :=
  /- 2384 -/ .wrap .always k!"APPLICATION-RULE-BASED-VALUE-SPECIFICATION" (
    /- 2385 -/ writeValueSpecification_ValueSpecification.app <|
    /- 2386 -/ .prim k!"CATEGORY" .lit k!"category" <|
    /- 2389 -/ .wrap (.any [(k!"swAxisConts", [])]) k!"SW-AXIS-CONTS" (
      /- 2391 -/ .each k!"swAxisConts" [] .plain [⟨[], [], k!"writeRuleBasedAxisCont_RuleBasedAxisCont"⟩] .skip <|
      .nil) <|
    /- 2392 -/ .each k!"swValueCont" [] .plain [⟨[], [], k!"writeRuleBasedValueCont_RuleBasedValueCont"⟩] .skip <|
    .nil) <|
  .nil

/-- `writeSwComponentTypeSwComponentDocumentation`, `writer/arxml_writer.py:1543-1548` -/
def writeSwComponentTypeSwComponentDocumentation_SwComponentType : WB :=
  /- 1547 -/ .each k!"swComponentDocumentation" [] .plain [⟨[], [], k!"writeSwComponentTypeSwComponentDocumentation_SwComponentType_L1547"⟩] .skip <|
  .nil

/-- `writeSwComponentTypeConsistencyNeeds`, `writer/arxml_writer.py:1653-1658` -/
def writeSwComponentTypeConsistencyNeeds_SwComponentType : WB :=
  /- 1656 -/ .wrap (.any [(k!"consistencyNeeds", [])]) k!"CONSISTENCY-NEEDSS" (
    /- 1658 -/ .each k!"consistencyNeeds" [] .plain [⟨[], [], k!"writeConsistencyNeeds_ConsistencyNeeds"⟩] .skip <|
    .nil) <|
  .nil

/-- `writeSwComponentTypePorts`, `writer/arxml_writer.py:1472-1484` -/
def writeSwComponentTypePorts_SwComponentType : WB :=
  /- 1475 -/ .wrap (.any [(k!"ports", [])]) k!"PORTS" (
    /- 1478 -/ .each k!"ports" [] .plain [⟨[(false, [k!"PPortPrototype"])], [], k!"writePPortPrototype_PPortPrototype"⟩,
      ⟨[(false, [k!"RPortPrototype"])], [k!"PPortPrototype"], k!"writeRPortPrototype_RPortPrototype"⟩,
      ⟨[(false, [k!"PRPortPrototype"])], [k!"PPortPrototype", k!"RPortPrototype"], k!"writePRPortPrototype_PRPortPrototype"⟩] .unsupported <|
    .nil) <|
  .nil

/-- `writeSwComponentTypePortGroups`, `writer/arxml_writer.py:1513-1518` -/
def writeSwComponentTypePortGroups_SwComponentType : WB :=
  /- 1516 -/ .wrap (.any [(k!"portGroups", [])]) k!"PORT-GROUPS" (
    /- 1518 -/ .each k!"portGroups" [] .plain [⟨[], [], k!"writePortGroup_PortGroup"⟩] .skip <|
    .nil) <|
  .nil

/-- `writeSwComponentTypeSwcMappingConstraints`, `writer/arxml_writer.py:1520-1525` -/
def writeSwComponentTypeSwcMappingConstraints_SwComponentType : WB :=
  /- 1523 -/ .wrap (.any [(k!"swcMappingConstraintsRefs", [])]) k!"SWC-MAPPING-CONSTRAINT-REFS" (
    /- 1525 -/ .prim k!"SWC-MAPPING-CONSTRAINT-REF" .ref k!"swcMappingConstraintsRefs" <|
    .nil) <|
  .nil

/-- `writeSwComponentTypeUnitGroups`, `writer/arxml_writer.py:1646-1651` -/
def writeSwComponentTypeUnitGroups_SwComponentType : WB :=
  /- 1649 -/ .wrap (.any [(k!"unitGroupRefs", [])]) k!"UNIT-GROUP-REFS" (
    /- 1651 -/ .prim k!"UNIT-GROUP-REF" .ref k!"unitGroupRefs" <|
    .nil) <|
  .nil

/-- `writeSwComponentType`, `writer/arxml_writer.py:1660-1667` -/
def writeSwComponentType_SwComponentType : WB :=
  /- 1661 -/ writeIdentifiable_ARPackage.app <|
  /- 1662 -/ writeSwComponentTypeSwComponentDocumentation_SwComponentType.app <|
  /- 1663 -/ writeSwComponentTypeConsistencyNeeds_SwComponentType.app <|
  /- 1664 -/ writeSwComponentTypePorts_SwComponentType.app <|
  /- 1665 -/ writeSwComponentTypePortGroups_SwComponentType.app <|
  /- 1666 -/ writeSwComponentTypeSwcMappingConstraints_SwComponentType.app <|
  /- 1667 -/ writeSwComponentTypeUnitGroups_SwComponentType.app <|
  .nil

/-- `writeAtomicSwComponentType`, `writer/arxml_writer.py:3981-3984` -/
def writeAtomicSwComponentType_AtomicSwComponentType : WB :=
  /- 3982 -/ writeSwComponentType_SwComponentType.app <|
  /- 3975 -/ .wrap (.any [(k!"internalBehavior", [])]) k!"INTERNAL-BEHAVIORS" (
    /- 3977 -/ .each k!"internalBehavior" [] .plain [⟨[(false, [k!"SwcInternalBehavior"])], [], k!"writeSwcInternalBehavior_SwcInternalBehavior"⟩] .unsupported <|
    .nil) <|
  /- 3984 -/ .each k!"symbolProps" [] .plain [⟨[], [], k!"writeSymbolProps_SymbolProps"⟩] .skip <|
  .nil

/-- `writeApplicationSwComponentType`, `writer/arxml_writer.py:5509-5512` -/
def writeApplicationSwComponentType_ApplicationSwComponentType : WB :=
  /- 5511 -/ .wrap .always k!"APPLICATION-SW-COMPONENT-TYPE" (
    /- 5512 -/ writeAtomicSwComponentType_AtomicSwComponentType.app <|
    .nil) <|
  .nil

/-- `writeApplicationValueSpecification`, `writer/arxml_writer.py:2329-2334` -/
def writeApplicationValueSpecification_ApplicationValueSpecification : WB :=
  /- 2331 -/ .wrap .always k!"APPLICATION-VALUE-SPECIFICATION" (
    /- 2332 -/ writeValueSpecification_ValueSpecification.app <|
    /- 2333 -/ .prim k!"CATEGORY" .lit k!"category" <|
    /- 2334 -/ .each k!"swValueCont" [] .plain [⟨[], [], k!"writeSwValueCont_SwValueCont"⟩] .skip <|
    .nil) <|
  .nil

/-- `writeArgumentDataPrototype`, `writer/arxml_writer.py:5415-5419` -/
def writeArgumentDataPrototype_ArgumentDataPrototype : WB :=
  /- 5416 -/ .wrap .always k!"ARGUMENT-DATA-PROTOTYPE" (
    /- 5417 -/ writeAutosarDataPrototype_AutosarDataPrototype.app <|
    /- 5418 -/ .prim k!"DIRECTION" .lit k!"direction" <|
    /- 5419 -/ .prim k!"SERVER-ARGUMENT-IMPL-POLICY" .lit k!"serverArgumentImplPolicy" <|
    .nil) <|
  .nil

/-- `writeArrayValueSpecification`, `writer/arxml_writer.py:1220-1242` -/
def writeArrayValueSpecification_ArrayValueSpecification : WB :=
  /- 1221 -/ .wrap .always k!"ARRAY-VALUE-SPECIFICATION" (
    /- 1222 -/ writeValueSpecification_ValueSpecification.app <|
    /- 1225 -/ .wrap (.any [(k!"element", [])]) k!"ELEMENTS" (
      /- 1228 -/ .each k!"element" [] .plain [⟨[(false, [k!"NumericalValueSpecification"])], [], k!"writeNumericalValueSpecification_NumericalValueSpecification"⟩,
        ⟨[(false, [k!"ApplicationValueSpecification"])], [k!"NumericalValueSpecification"], k!"writeApplicationValueSpecification_ApplicationValueSpecification"⟩,
        ⟨[(false, [k!"ApplicationRuleBasedValueSpecification"])], [k!"NumericalValueSpecification", k!"ApplicationValueSpecification"], k!"writeApplicationRuleBasedValueSpecification_ApplicationRuleBasedValueSpecification"⟩,
        ⟨[(false, [k!"CompositeRuleBasedValueSpecification"])], [k!"NumericalValueSpecification", k!"ApplicationValueSpecification", k!"ApplicationRuleBasedValueSpecification"], k!"writeCompositeRuleBasedValueSpecification_CompositeRuleBasedValueSpecification"⟩,
        ⟨[(false, [k!"TextValueSpecification"])], [k!"NumericalValueSpecification", k!"ApplicationValueSpecification", k!"ApplicationRuleBasedValueSpecification", k!"CompositeRuleBasedValueSpecification"], k!"writeTextValueSpecification_TextValueSpecification"⟩,
        ⟨[(false, [k!"ArrayValueSpecification"])], [k!"NumericalValueSpecification", k!"ApplicationValueSpecification", k!"ApplicationRuleBasedValueSpecification", k!"CompositeRuleBasedValueSpecification", k!"TextValueSpecification"], k!"writeArrayValueSpecification_ArrayValueSpecification"⟩,
        ⟨[(false, [k!"RecordValueSpecification"])], [k!"NumericalValueSpecification", k!"ApplicationValueSpecification", k!"ApplicationRuleBasedValueSpecification", k!"CompositeRuleBasedValueSpecification", k!"TextValueSpecification", k!"ArrayValueSpecification"], k!"writeRecordValueSpecification_RecordValueSpecification"⟩] .unsupported <|
      .nil) <|
    .nil) <|
  .nil

/-- `writeArtifactDescriptor`, `writer/arxml_writer.py:5315-5323` -/
def writeArtifactDescriptor_Code : WB :=
  /- 5318 -/ .wrap (.any [(k!"artifactDescriptors", [])]) k!"ARTIFACT-DESCRIPTORS" (
    /- 5321 -/ .each k!"artifactDescriptors" [] .plain [⟨[(false, [k!"AutosarEngineeringObject"])], [], k!"writeAutosarEngineeringObject_AutosarEngineeringObject"⟩] .unsupported <|
    .nil) <|
  .nil

/-- `writeSwConnector`, `writer/arxml_writer.py:1730-1732` -/
def writeSwConnector_SwConnector : WB :=
  /- 1731 -/ writeIdentifiable_ARPackage.app <|
  /- 1732 -/ .prim k!"MAPPING-REF" .ref k!"mappingRef" <|
  .nil

/-- `writeAssemblySwConnector`, `writer/arxml_writer.py:1684-1700` -/
def writeAssemblySwConnector_AssemblySwConnector : WB :=
  /- 1685 -/ .wrap .always k!"ASSEMBLY-SW-CONNECTOR" (
    /- 1686 -/ writeSwConnector_SwConnector.app <|
    /- 1689 -/ .each k!"providerIRef" [] .plain [⟨[], [], k!"writeAssemblySwConnector_AssemblySwConnector_L1689"⟩] .skip <|
    /- 1696 -/ .each k!"requesterIRef" [] .plain [⟨[], [], k!"writeAssemblySwConnector_AssemblySwConnector_L1696"⟩] .skip <|
    .nil) <|
  .nil

/-- `writeAssemblySwConnector`, `writer/arxml_writer.py:1684-1700` (the block at line 1689) -/
def writeAssemblySwConnector_AssemblySwConnector_L1689 : WB :=
  /- 1689 -/ .wrap .always k!"PROVIDER-IREF" (
    /- 1691 -/ .attr k!"T" .raw k!"timestamp" <|
    /- 1691 -/ .attr k!"UUID" .raw k!"uuid" <|
    /- 1692 -/ .prim k!"CONTEXT-COMPONENT-REF" .ref k!"contextComponentRef" <|
    /- 1693 -/ .prim k!"TARGET-P-PORT-REF" .ref k!"targetPPortRef" <|
    .nil) <|
  .nil

/-- `writeAssemblySwConnector`, `writer/arxml_writer.py:1684-1700` (the block at line 1696) -/
def writeAssemblySwConnector_AssemblySwConnector_L1696 : WB :=
  /- 1696 -/ .wrap .always k!"REQUESTER-IREF" (
    /- 1698 -/ .attr k!"T" .raw k!"timestamp" <|
    /- 1698 -/ .attr k!"UUID" .raw k!"uuid" <|
    /- 1699 -/ .prim k!"CONTEXT-COMPONENT-REF" .ref k!"contextComponentRef" <|
    /- 1700 -/ .prim k!"TARGET-R-PORT-REF" .ref k!"targetRPortRef" <|
    .nil) <|
  .nil

/-- `writeAsynchronousServerCallReturnsEvent`, `writer/arxml_writer.py:2614-2618` -/
def writeAsynchronousServerCallReturnsEvent_AsynchronousServerCallReturnsEvent : WB :=
  /- 2616 -/ .wrap .always k!"ASYNCHRONOUS-SERVER-CALL-RETURNS-EVENT" (
    /- 2617 -/ setRTEEvent_RTEEvent.app <|
    /- 2618 -/ .prim k!"EVENT-SOURCE-REF" .ref k!"activationReasonRepresentationRef" <|
    .nil) <|
  .nil

/-- `writeAttributeValueVariationPoint`, `writer/arxml_writer.py:3272-3300` -/
def writeAttributeValueVariationPoint_AttributeValueVariationPoint : WB :=
  /- 3273 -/ .attr k!"T" .raw k!"timestamp" <|
  /- 3273 -/ .attr k!"UUID" .raw k!"uuid" <|
  /- 3280 -/ .attr k!"BINDING-TIME" (.mapped .bindingTime) k!"bindingTime" <|
  /- 3283 -/ .attr k!"BLUEPRINT-VALUE" .getValue k!"blueprintValue" <|
  /- 3286 -/ .attr k!"SD" .getValue k!"sd" <|
  /- 3289 -/ .attr k!"SHORT-LABEL" .getValue k!"shortLabel" <|
  /- 3297 -/ .when (.cls [k!"LimitValueVariationPoint"]) (
    /- 3297 -/ .attr k!"INTERVAL-TYPE" (.mapped .intervalType) k!"intervalType" <|
    .nil) <|
  /- 3300 -/ .text .raw k!"_text" <|
  .nil

/-- `writeEngineeringObject`, `writer/arxml_writer.py:5299-5308` -/
def writeEngineeringObject_EngineeringObject : WB :=
  /- 5300 -/ .attr k!"T" .raw k!"timestamp" <|
  /- 5300 -/ .attr k!"UUID" .raw k!"uuid" <|
  /- 5301 -/ .prim k!"SHORT-LABEL" .lit k!"shortLabel" <|
  /- 5302 -/ .prim k!"CATEGORY" .lit k!"category" <|
  /- 5305 -/ .wrap (.any [(k!"revisionLabels", [])]) k!"REVISION-LABELS" (
    /- 5307 -/ .prim k!"REVISION-LABEL" .lit k!"revisionLabels" <|
    .nil) <|
  /- 5308 -/ .prim k!"DOMAIN" .lit k!"domain" <|
  .nil

/-- `writeAutosarEngineeringObject`, `writer/arxml_writer.py:5310-5313` -/
def writeAutosarEngineeringObject_AutosarEngineeringObject : WB :=
  /- 5312 -/ .wrap .always k!"AUTOSAR-ENGINEERING-OBJECT" (
    /- 5313 -/ writeEngineeringObject_EngineeringObject.app <|
    .nil) <|
  .nil

/-- `writeBackgroundEvent`, `writer/arxml_writer.py:2626-2629` -/
def writeBackgroundEvent_BackgroundEvent : WB :=
  /- 2628 -/ .wrap .always k!"BACKGROUND-EVENT" (
    /- 2629 -/ setRTEEvent_RTEEvent.app <|
    .nil) <|
  .nil

/-- `writeBlueprintGenerator`, `writer/arxml_writer.py:771-780` -/
def writeBlueprintGenerator_BlueprintGenerator : WB :=
  /- 773 -/ .wrap .always k!"FORMAL-BLUEPRINT-GENERATOR" (
    /- 774 -/ .attr k!"T" .raw k!"timestamp" <|
    /- 774 -/ .attr k!"UUID" .raw k!"uuid" <|
    /- 776 -/ .each k!"introduction" [] .plain [⟨[], [], k!"writeDocumentationBlock_INTRODUCTION_DocumentationBlock"⟩] .skip <|
    /- 779 -/ .prim k!"EXPRESSION" .getValue k!"expression" <|
    .nil) <|
  .nil

/-- `writeBswApiOptions`, `writer/arxml_writer.py:5031-5033` -/
def writeBswApiOptions_BswApiOptions : WB :=
  /- 5032 -/ .attr k!"T" .raw k!"timestamp" <|
  /- 5032 -/ .attr k!"UUID" .raw k!"uuid" <|
  /- 5033 -/ .prim k!"ENABLE-TAKE-ADDRESS" .lit k!"enableTakeAddress" <|
  .nil

/-- `writeBswModuleCallPoint`, `writer/arxml_writer.py:4822-4823` -/
def writeBswModuleCallPoint_BswModuleCallPoint : WB :=
  /- 4823 -/ writeReferrable_ARPackage.app <|
  .nil

/-- `writeBswAsynchronousServerCallPoint`, `writer/arxml_writer.py:4825-4828` -/
def writeBswAsynchronousServerCallPoint_BswAsynchronousServerCallPoint : WB :=
  /- 4826 -/ .wrap .always k!"BSW-ASYNCHRONOUS-SERVER-CALL-POINT" (
    /- 4827 -/ writeBswModuleCallPoint_BswModuleCallPoint.app <|
    /- 4828 -/ .prim k!"CALLED-ENTRY-REF" .ref k!"calledEntryRef" <|
    .nil) <|
  .nil

/-- `writeBswEvent`, `writer/arxml_writer.py:4890-4903` -/
def writeBswEvent_BswEvent : WB :=
  /- 4891 -/ writeIdentifiable_ARPackage.app <|
  /- 4892 -/ .prim k!"ACTIVATION-REASON-REPRESENTATION-REF" .ref k!"activationReasonRepresentationRef" <|
  /- 4895 -/ .wrap (.any [(k!"contextLimitationRefs", [])]) k!"CONTEXT-LIMITATION-REFS" (
    /- 4897 -/ .prim k!"CONTEXT-LIMITATION-REF" .ref k!"contextLimitationRefs" <|
    .nil) <|
  /- 4900 -/ .wrap (.any [(k!"disabledInModeIRefs", [])]) k!"DISABLED-IN-MODE-IREFS" (
    /- 4902 -/ .each k!"disabledInModeIRefs" [] .plain [⟨[], [], k!"setModeInBswModuleDescriptionInstanceRef_DISABLED_IN_MODE_IREF_ModeInBswModuleDescriptionInstanceRef"⟩] .skip <|
    .nil) <|
  /- 4903 -/ .prim k!"STARTS-ON-EVENT-REF" .ref k!"startsOnEventRef" <|
  .nil

/-- `writeBswScheduleEvent`, `writer/arxml_writer.py:4905-4906` -/
def writeBswScheduleEvent_BswScheduleEvent : WB :=
  /- 4906 -/ writeBswEvent_BswEvent.app <|
  .nil

/-- `writeBswAsynchronousServerCallReturnsEvent`, `writer/arxml_writer.py:4968-4972` -/
def writeBswAsynchronousServerCallReturnsEvent_BswAsynchronousServerCallReturnsEvent : WB :=
  /- 4970 -/ .wrap .always k!"BSW-ASYNCHRONOUS-SERVER-CALL-RETURNS-EVENT" (
    /- 4971 -/ writeBswScheduleEvent_BswScheduleEvent.app <|
    /- 4972 -/ .prim k!"EVENT-SOURCE-REF" .ref k!"eventSourceRef" <|
    .nil) <|
  .nil

/-- `writeBswBackgroundEvent`, `writer/arxml_writer.py:4914-4917` -/
def writeBswBackgroundEvent_BswBackgroundEvent : WB :=
  /- 4916 -/ .wrap .always k!"BSW-BACKGROUND-EVENT" (
    /- 4917 -/ writeBswScheduleEvent_BswScheduleEvent.app <|
    .nil) <|
  .nil

/-- `writeBswCalledEntity`, `writer/arxml_writer.py:4859-4862` -/
def writeBswCalledEntity_BswCalledEntity : WB :=
  /- 4861 -/ .wrap .always k!"BSW-CALLED-ENTITY" (
    /- 4862 -/ writeBswModuleEntity_BswModuleEntity.app <|
    .nil) <|
  .nil

/-- `writeBswDataReceivedEvent`, `writer/arxml_writer.py:4931-4936` -/
def writeBswDataReceivedEvent_BswDataReceivedEvent : WB :=
  /- 4934 -/ .wrap .always k!"BSW-DATA-RECEIVED-EVENT" (
    /- 4935 -/ writeBswScheduleEvent_BswScheduleEvent.app <|
    /- 4936 -/ .prim k!"DATA-REF" .ref k!"dataRef" <|
    .nil) <|
  .nil

/-- `writeBswDataReceptionPolicy`, `writer/arxml_writer.py:5035-5037` -/
def writeBswDataReceptionPolicy_BswDataReceptionPolicy : WB :=
  /- 5036 -/ writeBswApiOptions_BswApiOptions.app <|
  /- 5037 -/ .prim k!"RECEIVED-DATA-REF" .ref k!"receivedDataRef" <|
  .nil

/-- `writeBswExternalTriggerOccurredEvent`, `writer/arxml_writer.py:4925-4929` -/
def writeBswExternalTriggerOccurredEvent_BswExternalTriggerOccurredEvent : WB :=
  /- 4927 -/ .wrap .always k!"BSW-EXTERNAL-TRIGGER-OCCURRED-EVENT" (
    /- 4928 -/ writeBswScheduleEvent_BswScheduleEvent.app <|
    /- 4929 -/ .prim k!"TRIGGER-REF" .ref k!"triggerRef" <|
    .nil) <|
  .nil

/-- `writeBswImplementationPreconfiguredConfigurationRefs`, `writer/arxml_writer.py:5333-5339` -/
def writeBswImplementationPreconfiguredConfigurationRefs_BswImplementation : WB :=
  /- 5336 -/ .wrap (.any [(k!"preconfiguredConfigurationRefs", [])]) k!"PRECONFIGURED-CONFIGURATION-REFS" (
    /- 5339 -/ .prim k!"PRECONFIGURED-CONFIGURATION-REF" .ref k!"preconfiguredConfigurationRefs" <|
    .nil) <|
  .nil

/-- `writeBswImplementationRecommendedConfigurationRefs`, `writer/arxml_writer.py:5341-5347` -/
def writeBswImplementationRecommendedConfigurationRefs_BswImplementation : WB :=
  /- 5344 -/ .wrap (.any [(k!"recommendedConfigurationRefs", [])]) k!"RECOMMENDED-CONFIGURATION-REFS" (
    /- 5347 -/ .prim k!"RECOMMENDED-CONFIGURATION-REF" .ref k!"recommendedConfigurationRefs" <|
    .nil) <|
  .nil

/-- `writeBswImplementationVendorSpecificModuleDefRefs`, `writer/arxml_writer.py:5325-5331` -/
def writeBswImplementationVendorSpecificModuleDefRefs_BswImplementation : WB :=
  /- 5328 -/ .wrap (.any [(k!"vendorSpecificModuleDefRefs", [])]) k!"VENDOR-SPECIFIC-MODULE-DEF-REFS" (
    /- 5331 -/ .prim k!"VENDOR-SPECIFIC-MODULE-DEF-REF" .ref k!"vendorSpecificModuleDefRefs" <|
    .nil) <|
  .nil

/-- `writeImplementationBuildActionManifests`, `writer/arxml_writer.py:4482-4487` -/
def writeImplementationBuildActionManifests_Implementation : WB :=
  /- 4485 -/ .wrap (.any [(k!"buildActionManifestRef", [])]) k!"BUILD-ACTION-MANIFESTS" (
    /- 4486 -/ .wrap (.any [(k!"buildActionManifestRef", [])]) k!"BUILD-ACTION-MANIFEST-REF-CONDITIONAL" (
      /- 4487 -/ .prim k!"BUILD-ACTION-MANIFEST-REF" .ref k!"buildActionManifestRef" <|
      .nil) <|
    .nil) <|
  .nil

/-- `writeCodeDescriptors`, `writer/arxml_writer.py:4023-4031` -/
def writeCodeDescriptors_Implementation : WB :=
  /- 4026 -/ .wrap (.any [(k!"elements", [k!"Code"])]) k!"CODE-DESCRIPTORS" (
    /- 4029 -/ .each k!"elements" [k!"Code"] .plain [⟨[(false, [k!"Code"])], [], k!"writeCode_Code"⟩] .unsupported <|
    .nil) <|
  .nil

/-- `writeCompilers`, `writer/arxml_writer.py:4489-4497` -/
def writeCompilers_Implementation : WB :=
  /- 4492 -/ .wrap (.any [(k!"compilers", [])]) k!"COMPILERS" (
    /- 4495 -/ .each k!"compilers" [] .plain [⟨[(false, [k!"Compiler"])], [], k!"writeCompiler_Compiler"⟩] .unsupported <|
    .nil) <|
  .nil

/-- `writeImplementationHwElementRefs`, `writer/arxml_writer.py:4547-4552` -/
def writeImplementationHwElementRefs_Implementation : WB :=
  /- 4550 -/ .wrap (.any [(k!"hwElementRefs", [])]) k!"HW-ELEMENT-REFS" (
    /- 4552 -/ .prim k!"HW-ELEMENT-REF" .ref k!"hwElementRefs" <|
    .nil) <|
  .nil

/-- `writeLinkers`, `writer/arxml_writer.py:4507-4515` -/
def writeLinkers_Implementation : WB :=
  /- 4510 -/ .wrap (.any [(k!"linkers", [])]) k!"LINKERS" (
    /- 4513 -/ .each k!"linkers" [] .plain [⟨[(false, [k!"Linker"])], [], k!"writeLinker_Linker"⟩] .unsupported <|
    .nil) <|
  .nil

/-- `writeImplementation`, `writer/arxml_writer.py:4255-4272` -/
def writeImplementation_Implementation : WB :=
  /- 4256 -/ writeIdentifiable_ARPackage.app <|
  /- 4257 -/ writeImplementationBuildActionManifests_Implementation.app <|
  /- 4258 -/ writeCodeDescriptors_Implementation.app <|
  /- 4259 -/ writeCompilers_Implementation.app <|
  /- 4527 -/ .wrap (.any [(k!"generatedArtifacts", [])]) k!"GENERATED-ARTIFACTS" (
    /- 4530 -/ .each k!"generatedArtifacts" [] .plain [⟨[(false, [k!"DependencyOnArtifact"])], [], k!"writeDependencyOnArtifact_DependencyOnArtifact"⟩] .unsupported <|
    .nil) <|
  /- 4261 -/ writeImplementationHwElementRefs_Implementation.app <|
  /- 4262 -/ writeLinkers_Implementation.app <|
  /- 4263 -/ .prim k!"PROGRAMMING-LANGUAGE" .lit k!"programmingLanguage" <|
  /- 4527 -/ .wrap (.any [(k!"requiredArtifacts", [])]) k!"REQUIRED-ARTIFACTS" (
    /- 4530 -/ .each k!"requiredArtifacts" [] .plain [⟨[(false, [k!"DependencyOnArtifact"])], [], k!"writeDependencyOnArtifact_DependencyOnArtifact"⟩] .unsupported <|
    .nil) <|
  /- 4527 -/ .wrap (.any [(k!"requiredGeneratorTools", [])]) k!"REQUIRED-GENERATOR-TOOLS" (
    /- 4530 -/ .each k!"requiredGeneratorTools" [] .plain [⟨[(false, [k!"DependencyOnArtifact"])], [], k!"writeDependencyOnArtifact_DependencyOnArtifact"⟩] .unsupported <|
    .nil) <|
  /- 4266 -/ .each k!"resourceConsumption" [] .plain [⟨[], [], k!"setResourceConsumption_ResourceConsumption"⟩] .skip <|
  /- 4267 -/ .prim k!"SW-VERSION" .lit k!"swVersion" <|
  /- 4268 -/ .prim k!"SWC-BSW-MAPPING-REF" .ref k!"swcBswMappingRef" <|
  /- 4269 -/ .prim k!"USED-CODE-GENERATOR" .lit k!"usedCodeGenerator" <|
  /- 4270 -/ .prim k!"VENDOR-ID" .numerical k!"vendorId" <|
  /- 4272 -/ .each k!"mcSupport" [] .plain [⟨[], [], k!"writeMcSupportData_McSupportData"⟩] .skip <|
  .nil

/-- `writeBswImplementation`, `writer/arxml_writer.py:5349-5358` -/
def writeBswImplementation_BswImplementation : WB :=
  /- 5351 -/ .wrap .always k!"BSW-IMPLEMENTATION" (
    /- 5352 -/ writeImplementation_Implementation.app <|
    /- 5353 -/ .prim k!"AR-RELEASE-VERSION" .lit k!"arReleaseVersion" <|
    /- 5354 -/ .prim k!"BEHAVIOR-REF" .ref k!"behaviorRef" <|
    /- 5355 -/ .prim k!"VENDOR-API-INFIX" .lit k!"vendorApiInfix" <|
    /- 5356 -/ writeBswImplementationPreconfiguredConfigurationRefs_BswImplementation.app <|
    /- 5357 -/ writeBswImplementationRecommendedConfigurationRefs_BswImplementation.app <|
    /- 5358 -/ writeBswImplementationVendorSpecificModuleDefRefs_BswImplementation.app <|
    .nil) <|
  .nil

/-- `writeBswInternalBehaviorEntities`, `writer/arxml_writer.py:4876-4888` -/
def writeBswInternalBehaviorEntities_BswInternalBehavior : WB :=
  /- 4879 -/ .wrap (.any [(k!"elements", [k!"BswModuleEntity"])]) k!"ENTITYS" (
    /- 4882 -/ .each k!"elements" [k!"BswModuleEntity"] .plain [⟨[(false, [k!"BswCalledEntity"])], [], k!"writeBswCalledEntity_BswCalledEntity"⟩,
      ⟨[(false, [k!"BswSchedulableEntity"])], [k!"BswCalledEntity"], k!"writeBswSchedulableEntity_BswSchedulableEntity"⟩,
      ⟨[(false, [k!"BswInterruptEntity"])], [k!"BswCalledEntity", k!"BswSchedulableEntity"], k!"setBswInterruptEntity_BswInterruptEntity"⟩] .unsupported <|
    .nil) <|
  .nil

/-- `writeBswInternalBehaviorEvents`, `writer/arxml_writer.py:4974-5000` -/
def writeBswInternalBehaviorEvents_BswInternalBehavior : WB :=
  /- 4977 -/ .wrap (.any [(k!"elements", [k!"BswEvent"])]) k!"EVENTS" (
    /- 4980 -/ .each k!"elements" [k!"BswEvent"] .plain [⟨[(false, [k!"BswTimingEvent"])], [], k!"writeBswTimingEvent_BswTimingEvent"⟩,
      ⟨[(false, [k!"BswBackgroundEvent"])], [k!"BswTimingEvent"], k!"writeBswBackgroundEvent_BswBackgroundEvent"⟩,
      ⟨[(false, [k!"BswInternalTriggerOccurredEvent"])], [k!"BswTimingEvent", k!"BswBackgroundEvent"], k!"writeBswInternalTriggerOccurredEvent_BswInternalTriggerOccurredEvent"⟩,
      ⟨[(false, [k!"BswExternalTriggerOccurredEvent"])], [k!"BswTimingEvent", k!"BswBackgroundEvent", k!"BswInternalTriggerOccurredEvent"], k!"writeBswExternalTriggerOccurredEvent_BswExternalTriggerOccurredEvent"⟩,
      ⟨[(false, [k!"BswDataReceivedEvent"])], [k!"BswTimingEvent", k!"BswBackgroundEvent", k!"BswInternalTriggerOccurredEvent", k!"BswExternalTriggerOccurredEvent"], k!"writeBswDataReceivedEvent_BswDataReceivedEvent"⟩,
      ⟨[(false, [k!"BswOperationInvokedEvent"])], [k!"BswTimingEvent", k!"BswBackgroundEvent", k!"BswInternalTriggerOccurredEvent", k!"BswExternalTriggerOccurredEvent", k!"BswDataReceivedEvent"], k!"writeBswOperationInvokedEvent_BswOperationInvokedEvent"⟩,
      ⟨[(false, [k!"BswModeSwitchEvent"])], [k!"BswTimingEvent", k!"BswBackgroundEvent", k!"BswInternalTriggerOccurredEvent", k!"BswExternalTriggerOccurredEvent", k!"BswDataReceivedEvent", k!"BswOperationInvokedEvent"], k!"writeBswModeSwitchEvent_BswModeSwitchEvent"⟩,
      ⟨[(false, [k!"BswModeManagerErrorEvent"])], [k!"BswTimingEvent", k!"BswBackgroundEvent", k!"BswInternalTriggerOccurredEvent", k!"BswExternalTriggerOccurredEvent", k!"BswDataReceivedEvent", k!"BswOperationInvokedEvent", k!"BswModeSwitchEvent"], k!"writeBswModeManagerErrorEvent_BswModeManagerErrorEvent"⟩,
      ⟨[(false, [k!"BswModeSwitchedAckEvent"])], [k!"BswTimingEvent", k!"BswBackgroundEvent", k!"BswInternalTriggerOccurredEvent", k!"BswExternalTriggerOccurredEvent", k!"BswDataReceivedEvent", k!"BswOperationInvokedEvent", k!"BswModeSwitchEvent", k!"BswModeManagerErrorEvent"], k!"writeBswModeSwitchedAckEvent_BswModeSwitchedAckEvent"⟩,
      ⟨[(false, [k!"BswAsynchronousServerCallReturnsEvent"])], [k!"BswTimingEvent", k!"BswBackgroundEvent", k!"BswInternalTriggerOccurredEvent", k!"BswExternalTriggerOccurredEvent", k!"BswDataReceivedEvent", k!"BswOperationInvokedEvent", k!"BswModeSwitchEvent", k!"BswModeManagerErrorEvent", k!"BswModeSwitchedAckEvent"], k!"writeBswAsynchronousServerCallReturnsEvent_BswAsynchronousServerCallReturnsEvent"⟩] .unsupported <|
    .nil) <|
  .nil

/-- `writeBswInternalBehaviorIncludedModeDeclarationGroupSets`, `writer/arxml_writer.py:5024-5029` -/
def writeBswInternalBehaviorIncludedModeDeclarationGroupSets_BswInternalBehavior : WB :=
  /- 5027 -/ .wrap (.any [(k!"includedModeDeclarationGroupSets", [])]) k!"INCLUDED-MODE-DECLARATION-GROUP-SETS" (
    /- 5029 -/ .each k!"includedModeDeclarationGroupSets" [] .plain [⟨[], [], k!"writeIncludedModeDeclarationGroupSet_IncludedModeDeclarationGroupSet"⟩] .skip <|
    .nil) <|
  .nil

/-- `writeBswInternalBehaviorInternalTriggeringPoints`, `writer/arxml_writer.py:5058-5066` -/
def writeBswInternalBehaviorInternalTriggeringPoints_BswInternalBehavior : WB :=
  /- 5061 -/ .wrap (.any [(k!"internalTriggeringPoints", [])]) k!"INTERNAL-TRIGGERING-POINTS" (
    /- 5064 -/ .each k!"internalTriggeringPoints" [] .plain [⟨[(false, [k!"BswInternalTriggeringPoint"])], [], k!"writeBswInternalTriggeringPoint_BswInternalTriggeringPoint"⟩] .unsupported <|
    .nil) <|
  .nil

/-- `writeBswInternalBehaviorModeSenderPolicy`, `writer/arxml_writer.py:5014-5022` -/
def writeBswInternalBehaviorModeSenderPolicy_BswInternalBehavior : WB :=
  /- 5017 -/ .wrap (.any [(k!"modeSenderPolicies", [])]) k!"MODE-SENDER-POLICYS" (
    /- 5020 -/ .each k!"modeSenderPolicies" [] .plain [⟨[(false, [k!"BswModeSenderPolicy"])], [], k!"setBswModeSenderPolicy_BswModeSenderPolicy"⟩] .unsupported <|
    .nil) <|
  .nil

/-- `writeBswInternalBehaviorReceptionPolicies`, `writer/arxml_writer.py:5044-5052` -/
def writeBswInternalBehaviorReceptionPolicies_BswInternalBehavior : WB :=
  /- 5047 -/ .wrap (.any [(k!"receptionPolicies", [])]) k!"RECEPTION-POLICYS" (
    /- 5050 -/ .each k!"receptionPolicies" [] .plain [⟨[(false, [k!"BswQueuedDataReceptionPolicy"])], [], k!"writeBswQueuedDataReceptionPolicy_BswQueuedDataReceptionPolicy"⟩] .unsupported <|
    .nil) <|
  .nil

/-- `writeBswInternalBehaviorServiceDependencies`, `writer/arxml_writer.py:3467-3475` -/
def writeBswInternalBehaviorServiceDependencies_BswInternalBehavior : WB :=
  /- 3470 -/ .wrap (.any [(k!"serviceDependencies", [])]) k!"SERVICE-DEPENDENCYS" (
    /- 3473 -/ .each k!"serviceDependencies" [] .plain [⟨[(false, [k!"BswServiceDependency"])], [], k!"writeBswServiceDependency_BswServiceDependency"⟩] .unsupported <|
    .nil) <|
  .nil

/-- `writeDataTypeMappingRefs`, `writer/arxml_writer.py:2687-2692`; also `writeCompositionSwComponentTypeDataTypeMappingSet` -/
def writeDataTypeMappingRefs_InternalBehavior : WB :=
  /- 2690 -/ .wrap (.any [(k!"dataTypeMappingRefs", [])]) k!"DATA-TYPE-MAPPING-REFS" (
    /- 2692 -/ .prim k!"DATA-TYPE-MAPPING-REF" .ref k!"dataTypeMappingRefs" <|
    .nil) <|
  .nil

/-- `writeExclusiveAreas`, `writer/arxml_writer.py:2666-2672` -/
def writeExclusiveAreas_InternalBehavior : WB :=
  /- 2669 -/ .wrap (.any [(k!"elements", [k!"ExclusiveArea"])]) k!"EXCLUSIVE-AREAS" (
    /- 2671 -/ .each k!"elements" [k!"ExclusiveArea"] .plain [⟨[], [], k!"writeExclusiveAreas_InternalBehavior_L2671"⟩] .skip <|
    .nil) <|
  .nil

/-- `writeExclusiveAreaNestingOrders`, `writer/arxml_writer.py:2674-2685` -/
def writeExclusiveAreaNestingOrders_InternalBehavior : WB :=
  /- 2677 -/ .wrap (.any [(k!"elements", [k!"ExclusiveAreaNestingOrder"])]) k!"EXCLUSIVE-AREA-NESTING-ORDERS" (
    /- 2679 -/ .each k!"elements" [k!"ExclusiveAreaNestingOrder"] .plain [⟨[], [], k!"writeExclusiveAreaNestingOrders_InternalBehavior_L2679"⟩] .skip <|
    .nil) <|
  .nil

/-- `writeInternalBehaviorStaticMemories`, `writer/arxml_writer.py:2694-2700` -/
def writeInternalBehaviorStaticMemories_InternalBehavior : WB :=
  /- 2697 -/ .wrap (.any [(k!"staticMemories", [])]) k!"STATIC-MEMORYS" (
    /- 2700 -/ .each k!"staticMemories" [] .plain [⟨[(false, [k!"VariableDataPrototype"])], [], k!"writeVariableDataPrototype_VariableDataPrototype"⟩] .skip <|
    .nil) <|
  .nil

/-- `writeInternalBehavior`, `writer/arxml_writer.py:2702-2708` -/
def writeInternalBehavior_InternalBehavior : WB :=
  /- 2703 -/ writeIdentifiable_ARPackage.app <|
  /- 3247 -/ .wrap (.any [(k!"constantMemories", [])]) k!"CONSTANT-MEMORYS" (
    /- 3249 -/ .each k!"constantMemories" [] .plain [⟨[], [], k!"writeParameterDataPrototype_ParameterDataPrototype"⟩] .skip <|
    .nil) <|
  /- 2705 -/ writeDataTypeMappingRefs_InternalBehavior.app <|
  /- 2706 -/ writeExclusiveAreas_InternalBehavior.app <|
  /- 2707 -/ writeExclusiveAreaNestingOrders_InternalBehavior.app <|
  /- 2708 -/ writeInternalBehaviorStaticMemories_InternalBehavior.app <|
  .nil

/-- `writeBswInternalBehavior`, `writer/arxml_writer.py:5068-5077` -/
def writeBswInternalBehavior_BswInternalBehavior : WB :=
  /- 5069 -/ .wrap .always k!"BSW-INTERNAL-BEHAVIOR" (
    /- 5070 -/ writeInternalBehavior_InternalBehavior.app <|
    /- 5071 -/ writeBswInternalBehaviorInternalTriggeringPoints_BswInternalBehavior.app <|
    /- 5072 -/ writeBswInternalBehaviorEntities_BswInternalBehavior.app <|
    /- 5073 -/ writeBswInternalBehaviorEvents_BswInternalBehavior.app <|
    /- 5074 -/ writeBswInternalBehaviorModeSenderPolicy_BswInternalBehavior.app <|
    /- 5075 -/ writeBswInternalBehaviorIncludedModeDeclarationGroupSets_BswInternalBehavior.app <|
    /- 5076 -/ writeBswInternalBehaviorReceptionPolicies_BswInternalBehavior.app <|
    /- 5077 -/ writeBswInternalBehaviorServiceDependencies_BswInternalBehavior.app <|
    .nil) <|
  .nil

/-- `writeBswInternalTriggerOccurredEvent`, `writer/arxml_writer.py:4919-4923` -/
def writeBswInternalTriggerOccurredEvent_BswInternalTriggerOccurredEvent : WB :=
  /- 4921 -/ .wrap .always k!"BSW-INTERNAL-TRIGGER-OCCURRED-EVENT" (
    /- 4922 -/ writeBswScheduleEvent_BswScheduleEvent.app <|
    /- 4923 -/ .prim k!"EVENT-SOURCE-REF" .ref k!"eventSourceRef" <|
    .nil) <|
  .nil

/-- `writeBswInternalTriggeringPoint`, `writer/arxml_writer.py:5054-5056` -/
def writeBswInternalTriggeringPoint_BswInternalTriggeringPoint : WB :=
  /- 5055 -/ .wrap .always k!"BSW-INTERNAL-TRIGGERING-POINT" (
    /- 5056 -/ writeIdentifiable_ARPackage.app <|
    .nil) <|
  .nil

/-- `writeBswMgrNeeds`, `writer/arxml_writer.py:3513-3515` -/
def writeBswMgrNeeds_BswMgrNeeds : WB :=
  /- 3514 -/ .wrap .always k!"BSW-MGR-NEEDS" (
    /- 3515 -/ writeARElement_System.app <|
    .nil) <|
  .nil

/-- `writeBswModeManagerErrorEvent`, `writer/arxml_writer.py:4956-4960` -/
def writeBswModeManagerErrorEvent_BswModeManagerErrorEvent : WB :=
  /- 4958 -/ .wrap .always k!"BSW-MODE-MANAGER-ERROR-EVENT" (
    /- 4959 -/ writeBswScheduleEvent_BswScheduleEvent.app <|
    /- 4960 -/ .prim k!"MODE-GROUP-REF" .ref k!"modeGroupRef" <|
    .nil) <|
  .nil

/-- `writeBswModeSwitchEvent`, `writer/arxml_writer.py:4945-4954` -/
def writeBswModeSwitchEvent_BswModeSwitchEvent : WB :=
  /- 4947 -/ .wrap .always k!"BSW-MODE-SWITCH-EVENT" (
    /- 4948 -/ writeBswScheduleEvent_BswScheduleEvent.app <|
    /- 4949 -/ .prim k!"ACTIVATION" .lit k!"activation" <|
    /- 4952 -/ .wrap (.any [(k!"modeIRefs", [])]) k!"MODE-IREFS" (
      /- 4954 -/ .each k!"modeIRefs" [] .plain [⟨[], [], k!"setModeInBswModuleDescriptionInstanceRef_MODE_IREF_ModeInBswModuleDescriptionInstanceRef"⟩] .skip <|
      .nil) <|
    .nil) <|
  .nil

/-- `writeBswModeSwitchedAckEvent`, `writer/arxml_writer.py:4962-4966` -/
def writeBswModeSwitchedAckEvent_BswModeSwitchedAckEvent : WB :=
  /- 4964 -/ .wrap .always k!"BSW-MODE-SWITCHED-ACK-EVENT" (
    /- 4965 -/ writeBswScheduleEvent_BswScheduleEvent.app <|
    /- 4966 -/ .prim k!"MODE-GROUP-REF" .ref k!"modeGroupRef" <|
    .nil) <|
  .nil

/-- `writeBswModuleClientServerEntry`, `writer/arxml_writer.py:5133-5139` -/
def writeBswModuleClientServerEntry_BswModuleClientServerEntry : WB :=
  /- 5135 -/ .wrap .always k!"BSW-MODULE-CLIENT-SERVER-ENTRY" (
    /- 5136 -/ writeReferrable_ARPackage.app <|
    /- 5137 -/ .prim k!"ENCAPSULATED-ENTRY-REF" .ref k!"encapsulatedEntryRef" <|
    /- 5138 -/ .prim k!"IS-REENTRANT" .lit k!"isReentrant" <|
    /- 5139 -/ .prim k!"IS-SYNCHRONOUS" .lit k!"isSynchronous" <|
    .nil) <|
  .nil

/-- `writeBswModuleDescriptionBswModuleDependencies`, `writer/arxml_writer.py:5187-5198` -/
def writeBswModuleDescriptionBswModuleDependencies_BswModuleDescription : WB :=
  /- 5190 -/ .wrap (.any [(k!"bswModuleDependencies", [])]) k!"BSW-MODULE-DEPENDENCYS" (
    /- 5193 -/ .each k!"bswModuleDependencies" [] .plain [⟨[(false, [k!"BswModuleDependency"])], [], k!"writeBswModuleDescriptionBswModuleDependencies_BswModuleDescription_L5193"⟩] .unsupported <|
    .nil) <|
  .nil

/-- `writeBswModuleDescriptionBswModuleDependencies`, `writer/arxml_writer.py:5187-5198` (the block at line 5193) -/
def writeBswModuleDescriptionBswModuleDependencies_BswModuleDescription_L5193 : WB :=
  /- 5193 -/ .wrap .always k!"BSW-MODULE-DEPENDENCY" (
    /- 5194 -/ writeIdentifiable_ARPackage.app <|
    /- 5195 -/ .prim k!"TARGET-MODULE-ID" .numerical k!"targetModuleId" <|
    /- 5196 -/ .prim k!"TARGET-MODULE-REF" .ref k!"targetModuleRef" <|
    .nil) <|
  .nil

/-- `writeBswModuleDescriptionBswModuleDocumentation`, `writer/arxml_writer.py:5200-5206` -/
def writeBswModuleDescriptionBswModuleDocumentation_BswModuleDescription : WB :=
  /- 5204 -/ .wrap (.any [(k!"bswModuleDocumentation", [])]) k!"BSW-MODULE-DOCUMENTATIONS" (
    /- 5204 -/ .each k!"bswModuleDocumentation" [] .plain [⟨[], [], k!"writeSwComponentTypeSwComponentDocumentation_SwComponentType_L1547"⟩] .skip <|
    .nil) <|
  .nil

/-- `writeSwComponentDocumentationElement`, `writer/arxml_writer.py:1527-1541` -/
def writeSwComponentDocumentationElement_SwComponentDocumentation : WB :=
  /- 1539 -/ .each k!"swFeatureDef" [] .plain [⟨[], [], k!"writeChapter_Chapter_SW_FEATURE_DEF"⟩] .skip <|
  /- 1539 -/ .each k!"swFeatureDesc" [] .plain [⟨[], [], k!"writeChapter_Chapter_SW_FEATURE_DESC"⟩] .skip <|
  /- 1539 -/ .each k!"swTestDesc" [] .plain [⟨[], [], k!"writeChapter_Chapter_SW_TEST_DESC"⟩] .skip <|
  /- 1539 -/ .each k!"swCalibrationNotes" [] .plain [⟨[], [], k!"writeChapter_Chapter_SW_CALIBRATION_NOTES"⟩] .skip <|
  /- 1539 -/ .each k!"swMaintenanceNotes" [] .plain [⟨[], [], k!"writeChapter_Chapter_SW_MAINTENANCE_NOTES"⟩] .skip <|
  /- 1539 -/ .each k!"swDiagnosticsNotes" [] .plain [⟨[], [], k!"writeChapter_Chapter_SW_DIAGNOSTICS_NOTES"⟩] .skip <|
  /- 1539 -/ .each k!"swCarbDoc" [] .plain [⟨[], [], k!"writeChapter_Chapter_SW_CARB_DOC"⟩] .skip <|
  /- 1541 -/ .each k!"chapters" [] .plain [⟨[], [], k!"writeChapter_Chapter_CHAPTER"⟩] .skip <|
  .nil

/-- `writeSwComponentTypeSwComponentDocumentation`, `writer/arxml_writer.py:1543-1548` (the block at line 1547); also `writeBswModuleDescriptionBswModuleDocumentation` -/
def writeSwComponentTypeSwComponentDocumentation_SwComponentType_L1547 : WB :=
  /- 1547 -/ .wrap .always k!"SW-COMPONENT-DOCUMENTATION" (
    /- 1548 -/ writeSwComponentDocumentationElement_SwComponentDocumentation.app <|
    .nil) <|
  .nil

/-- `writeBswModuleDescriptionExpectedEntryRefs`, `writer/arxml_writer.py:5179-5185` -/
def writeBswModuleDescriptionExpectedEntryRefs_BswModuleDescription : WB :=
  /- 5182 -/ .wrap (.any [(k!"expectedEntryRefs", [])]) k!"EXPECTED-ENTRYS" (
    /- 5185 -/ .oprim k!"BSW-MODULE-ENTRY-REF-CONDITIONAL" k!"BSW-MODULE-ENTRY-REF" .ref k!"expectedEntryRefs" <|
    .nil) <|
  .nil

/-- `writeBswModuleDescriptionImplementedEntryRefs`, `writer/arxml_writer.py:4685-4691` -/
def writeBswModuleDescriptionImplementedEntryRefs_BswModuleDescription : WB :=
  /- 4688 -/ .wrap (.any [(k!"implementedEntryRefs", [])]) k!"PROVIDED-ENTRYS" (
    /- 4691 -/ .oprim k!"BSW-MODULE-ENTRY-REF-CONDITIONAL" k!"BSW-MODULE-ENTRY-REF" .ref k!"implementedEntryRefs" <|
    .nil) <|
  .nil

/-- `writeBswModuleDescriptionInternalBehaviors`, `writer/arxml_writer.py:5079-5087` -/
def writeBswModuleDescriptionInternalBehaviors_BswModuleDescription : WB :=
  /- 5082 -/ .wrap (.any [(k!"internalBehaviors", [])]) k!"INTERNAL-BEHAVIORS" (
    /- 5085 -/ .each k!"internalBehaviors" [] .plain [⟨[(false, [k!"BswInternalBehavior"])], [], k!"writeBswInternalBehavior_BswInternalBehavior"⟩] .unsupported <|
    .nil) <|
  .nil

/-- `writeBswModuleDescriptionProvidedClientServerEntries`, `writer/arxml_writer.py:5141-5149` -/
def writeBswModuleDescriptionProvidedClientServerEntries_BswModuleDescription : WB :=
  /- 5144 -/ .wrap (.any [(k!"providedClientServerEntries", [])]) k!"PROVIDED-CLIENT-SERVER-ENTRYS" (
    /- 5147 -/ .each k!"providedClientServerEntries" [] .plain [⟨[(false, [k!"BswModuleClientServerEntry"])], [], k!"writeBswModuleClientServerEntry_BswModuleClientServerEntry"⟩] .unsupported <|
    .nil) <|
  .nil

/-- `writeBswModuleDescriptionProvidedDatas`, `writer/arxml_writer.py:5113-5121` -/
def writeBswModuleDescriptionProvidedDatas_BswModuleDescription : WB :=
  /- 5116 -/ .wrap (.any [(k!"providedDatas", [])]) k!"PROVIDED-DATAS" (
    /- 5119 -/ .each k!"providedDatas" [] .plain [⟨[(false, [k!"VariableDataPrototype"])], [], k!"writeVariableDataPrototype_VariableDataPrototype"⟩] .unsupported <|
    .nil) <|
  .nil

/-- `writeBswModuleDescriptionProvidedModeGroups`, `writer/arxml_writer.py:4699-4707` -/
def writeBswModuleDescriptionProvidedModeGroups_BswModuleDescription : WB :=
  /- 4702 -/ .wrap (.any [(k!"providedModeGroups", [])]) k!"PROVIDED-MODE-GROUPS" (
    /- 4705 -/ .each k!"providedModeGroups" [] .plain [⟨[(false, [k!"ModeDeclarationGroupPrototype"])], [], k!"writeModeDeclarationGroupPrototype_ModeDeclarationGroupPrototype"⟩] .unsupported <|
    .nil) <|
  .nil

/-- `writeBswModuleDescriptionReleasedTriggers`, `writer/arxml_writer.py:5093-5101` -/
def writeBswModuleDescriptionReleasedTriggers_BswModuleDescription : WB :=
  /- 5096 -/ .wrap (.any [(k!"releasedTriggers", [])]) k!"RELEASED-TRIGGERS" (
    /- 5099 -/ .each k!"releasedTriggers" [] .plain [⟨[(false, [k!"Trigger"])], [], k!"writeTrigger_Trigger"⟩] .unsupported <|
    .nil) <|
  .nil

/-- `writeBswModuleDescriptionRequiredClientServerEntries`, `writer/arxml_writer.py:5151-5159` -/
def writeBswModuleDescriptionRequiredClientServerEntries_BswModuleDescription : WB :=
  /- 5154 -/ .wrap (.any [(k!"requiredClientServerEntries", [])]) k!"REQUIRED-CLIENT-SERVER-ENTRYS" (
    /- 5157 -/ .each k!"requiredClientServerEntries" [] .plain [⟨[(false, [k!"BswModuleClientServerEntry"])], [], k!"writeBswModuleClientServerEntry_BswModuleClientServerEntry"⟩] .unsupported <|
    .nil) <|
  .nil

/-- `writeBswModuleDescriptionRequiredDatas`, `writer/arxml_writer.py:5123-5131` -/
def writeBswModuleDescriptionRequiredDatas_BswModuleDescription : WB :=
  /- 5126 -/ .wrap (.any [(k!"requiredDatas", [])]) k!"REQUIRED-DATAS" (
    /- 5129 -/ .each k!"requiredDatas" [] .plain [⟨[(false, [k!"VariableDataPrototype"])], [], k!"writeVariableDataPrototype_VariableDataPrototype"⟩] .unsupported <|
    .nil) <|
  .nil

/-- `writeBswModuleDescriptionRequiredModeGroups`, `writer/arxml_writer.py:4709-4717` -/
def writeBswModuleDescriptionRequiredModeGroups_BswModuleDescription : WB :=
  /- 4712 -/ .wrap (.any [(k!"requiredModeGroups", [])]) k!"REQUIRED-MODE-GROUPS" (
    /- 4715 -/ .each k!"requiredModeGroups" [] .plain [⟨[(false, [k!"ModeDeclarationGroupPrototype"])], [], k!"writeModeDeclarationGroupPrototype_ModeDeclarationGroupPrototype"⟩] .unsupported <|
    .nil) <|
  .nil

/-- `writeBswModuleDescription`, `writer/arxml_writer.py:5161-5177` -/
def writeBswModuleDescription_BswModuleDescription : WB :=
  /- 5163 -/ .wrap .always k!"BSW-MODULE-DESCRIPTION" (
    /- 5164 -/ writeIdentifiable_ARPackage.app <|
    /- 5165 -/ .prim k!"MODULE-ID" .numerical k!"moduleId" <|
    /- 5166 -/ writeBswModuleDescriptionImplementedEntryRefs_BswModuleDescription.app <|
    /- 5167 -/ writeBswModuleDescriptionProvidedModeGroups_BswModuleDescription.app <|
    /- 5168 -/ writeBswModuleDescriptionRequiredModeGroups_BswModuleDescription.app <|
    /- 5169 -/ writeBswModuleDescriptionProvidedClientServerEntries_BswModuleDescription.app <|
    /- 5170 -/ writeBswModuleDescriptionRequiredClientServerEntries_BswModuleDescription.app <|
    /- 5171 -/ writeBswModuleDescriptionProvidedDatas_BswModuleDescription.app <|
    /- 5172 -/ writeBswModuleDescriptionRequiredDatas_BswModuleDescription.app <|
    /- 5173 -/ writeBswModuleDescriptionInternalBehaviors_BswModuleDescription.app <|
    /- 5174 -/ writeBswModuleDescriptionReleasedTriggers_BswModuleDescription.app <|
    /- 5175 -/ writeBswModuleDescriptionExpectedEntryRefs_BswModuleDescription.app <|
    /- 5176 -/ writeBswModuleDescriptionBswModuleDependencies_BswModuleDescription.app <|
    /- 5177 -/ writeBswModuleDescriptionBswModuleDocumentation_BswModuleDescription.app <|
    .nil) <|
  .nil

/-- `writeBswModuleEntryArguments`, `writer/arxml_writer.py:5217-5222` -/
def writeBswModuleEntryArguments_BswModuleEntry : WB :=
  /- 5220 -/ .wrap (.any [(k!"arguments", [])]) k!"ARGUMENTS" (
    /- 5222 -/ .each k!"arguments" [] .plain [⟨[], [], k!"setSwServiceArg_SW_SERVICE_ARG_SwServiceArg"⟩] .skip <|
    .nil) <|
  .nil

/-- `writeBswModuleEntryReturnType`, `writer/arxml_writer.py:5224-5226` -/
def writeBswModuleEntryReturnType_BswModuleEntry : WB :=
  /- 5226 -/ .each k!"returnType" [] .plain [⟨[], [], k!"setSwServiceArg_RETURN_TYPE_SwServiceArg"⟩] .skip <|
  .nil

/-- `writeBswModuleEntry`, `writer/arxml_writer.py:5228-5242` -/
def writeBswModuleEntry_BswModuleEntry : WB :=
  /- 5230 -/ .wrap .always k!"BSW-MODULE-ENTRY" (
    /- 5231 -/ writeIdentifiable_ARPackage.app <|
    /- 5232 -/ .prim k!"SERVICE-ID" .numerical k!"serviceId" <|
    /- 5233 -/ .prim k!"IS-REENTRANT" .lit k!"isReentrant" <|
    /- 5234 -/ .prim k!"IS-SYNCHRONOUS" .lit k!"isSynchronous" <|
    /- 5235 -/ .prim k!"CALL-TYPE" .lit k!"callType" <|
    /- 5236 -/ .prim k!"EXECUTION-CONTEXT" .lit k!"executionContext" <|
    /- 5237 -/ .prim k!"SW-SERVICE-IMPL-POLICY" .lit k!"swServiceImplPolicy" <|
    /- 5238 -/ .prim k!"BSW-ENTRY-KIND" .lit k!"bswEntryKind" <|
    /- 5239 -/ .prim k!"ROLE" .lit k!"role" <|
    /- 5240 -/ .prim k!"FUNCTION-PROTOTYPE-EMITTER" .lit k!"functionPrototypeEmitter" <|
    /- 5241 -/ writeBswModuleEntryReturnType_BswModuleEntry.app <|
    /- 5242 -/ writeBswModuleEntryArguments_BswModuleEntry.app <|
    .nil) <|
  .nil

/-- `writeBswOperationInvokedEvent`, `writer/arxml_writer.py:4938-4943` -/
def writeBswOperationInvokedEvent_BswOperationInvokedEvent : WB :=
  /- 4941 -/ .wrap .always k!"BSW-OPERATION-INVOKED-EVENT" (
    /- 4942 -/ writeBswEvent_BswEvent.app <|
    /- 4943 -/ .prim k!"ENTRY-REF" .ref k!"entryRef" <|
    .nil) <|
  .nil

/-- `writeBswQueuedDataReceptionPolicy`, `writer/arxml_writer.py:5039-5042` -/
def writeBswQueuedDataReceptionPolicy_BswQueuedDataReceptionPolicy : WB :=
  /- 5040 -/ .wrap .always k!"BSW-QUEUED-DATA-RECEPTION-POLICY" (
    /- 5041 -/ writeBswDataReceptionPolicy_BswDataReceptionPolicy.app <|
    /- 5042 -/ .prim k!"QUEUE-LENGTH" .numerical k!"queueLength" <|
    .nil) <|
  .nil

/-- `writeBswSchedulableEntity`, `writer/arxml_writer.py:4864-4867` -/
def writeBswSchedulableEntity_BswSchedulableEntity : WB :=
  /- 4866 -/ .wrap .always k!"BSW-SCHEDULABLE-ENTITY" (
    /- 4867 -/ writeBswModuleEntity_BswModuleEntity.app <|
    .nil) <|
  .nil

/-- `writeBswServiceDependencyAssignedData`, `writer/arxml_writer.py:3367-3375`; also `writeSwcServiceDependencyAssignedData` -/
def writeBswServiceDependencyAssignedData_BswServiceDependency : WB :=
  /- 3370 -/ .wrap (.any [(k!"assignedData", [])]) k!"ASSIGNED-DATAS" (
    /- 3373 -/ .each k!"assignedData" [] .plain [⟨[(false, [k!"RoleBasedDataAssignment"])], [], k!"writeRoleBasedDataAssignment_RoleBasedDataAssignment"⟩] .unsupported <|
    .nil) <|
  .nil

/-- `writeBswServiceDependencyAssignedEntryRoles`, `writer/arxml_writer.py:3377-3385` -/
def writeBswServiceDependencyAssignedEntryRoles_BswServiceDependency : WB :=
  /- 3380 -/ .wrap (.any [(k!"assignedEntryRole", [])]) k!"ASSIGNED-ENTRY-ROLES" (
    /- 3383 -/ .each k!"assignedEntryRole" [] .plain [⟨[(false, [k!"RoleBasedBswModuleEntryAssignment"])], [], k!"writeRoleBasedBswModuleEntryAssignment_RoleBasedBswModuleEntryAssignment"⟩] .unsupported <|
    .nil) <|
  .nil

/-- `writeBswServiceDependencyIdent`, `writer/arxml_writer.py:3357-3359`; also `writeRunnableEntityExternalTriggeringPoints` -/
def writeBswServiceDependencyIdent_BswServiceDependencyIdent : WB :=
  /- 3358 -/ .wrap .always k!"IDENT" (
    /- 3359 -/ writeIdentifiable_ARPackage.app <|
    .nil) <|
  .nil

/-- `writeBswServiceDependencyServiceNeeds`, `writer/arxml_writer.py:3387-3453` -/
def writeBswServiceDependencyServiceNeeds_BswServiceDependency : WB :=
  /- 3391 -/ .wrap (.any [(k!"serviceNeeds", [])]) k!"SERVICE-NEEDS" (
    /- 3393 -/ .each k!"serviceNeeds" [] .plain [⟨[(false, [k!"BswMgrNeeds"])], [], k!"writeBswMgrNeeds_BswMgrNeeds"⟩,
      ⟨[(false, [k!"NvBlockNeeds"])], [k!"BswMgrNeeds"], k!"writeNvBlockNeeds_NvBlockNeeds"⟩,
      ⟨[(false, [k!"DiagnosticCommunicationManagerNeeds"])], [k!"BswMgrNeeds", k!"NvBlockNeeds"], k!"writeDiagnosticCommunicationManagerNeeds_DiagnosticCommunicationManagerNeeds"⟩,
      ⟨[(false, [k!"DiagnosticRoutineNeeds"])], [k!"BswMgrNeeds", k!"NvBlockNeeds", k!"DiagnosticCommunicationManagerNeeds"], k!"writeDiagnosticRoutineNeeds_DiagnosticRoutineNeeds"⟩,
      ⟨[(false, [k!"DiagnosticValueNeeds"])], [k!"BswMgrNeeds", k!"NvBlockNeeds", k!"DiagnosticCommunicationManagerNeeds", k!"DiagnosticRoutineNeeds"], k!"writeDiagnosticValueNeeds_DiagnosticValueNeeds"⟩,
      ⟨[(false, [k!"DiagnosticEventNeeds"])], [k!"BswMgrNeeds", k!"NvBlockNeeds", k!"DiagnosticCommunicationManagerNeeds", k!"DiagnosticRoutineNeeds", k!"DiagnosticValueNeeds"], k!"writeDiagnosticEventNeeds_DiagnosticEventNeeds"⟩,
      ⟨[(false, [k!"DiagnosticEventInfoNeeds"])], [k!"BswMgrNeeds", k!"NvBlockNeeds", k!"DiagnosticCommunicationManagerNeeds", k!"DiagnosticRoutineNeeds", k!"DiagnosticValueNeeds", k!"DiagnosticEventNeeds"], k!"writeDiagnosticEventInfoNeeds_DiagnosticEventInfoNeeds"⟩,
      ⟨[(false, [k!"DiagnosticIoControlNeeds"])], [k!"BswMgrNeeds", k!"NvBlockNeeds", k!"DiagnosticCommunicationManagerNeeds", k!"DiagnosticRoutineNeeds", k!"DiagnosticValueNeeds", k!"DiagnosticEventNeeds", k!"DiagnosticEventInfoNeeds"], k!"writeDiagnosticIoControlNeeds_DiagnosticIoControlNeeds"⟩,
      ⟨[(false, [k!"DiagnosticEnableConditionNeeds"])], [k!"BswMgrNeeds", k!"NvBlockNeeds", k!"DiagnosticCommunicationManagerNeeds", k!"DiagnosticRoutineNeeds", k!"DiagnosticValueNeeds", k!"DiagnosticEventNeeds", k!"DiagnosticEventInfoNeeds", k!"DiagnosticIoControlNeeds"], k!"writeDiagnosticEnableConditionNeeds_DiagnosticEnableConditionNeeds"⟩,
      ⟨[(false, [k!"DiagnosticOperationCycleNeeds"])], [k!"BswMgrNeeds", k!"NvBlockNeeds", k!"DiagnosticCommunicationManagerNeeds", k!"DiagnosticRoutineNeeds", k!"DiagnosticValueNeeds", k!"DiagnosticEventNeeds", k!"DiagnosticEventInfoNeeds", k!"DiagnosticIoControlNeeds", k!"DiagnosticEnableConditionNeeds"], k!"writeDiagnosticOperationCycleNeeds_DiagnosticOperationCycleNeeds"⟩,
      ⟨[(false, [k!"DiagnosticStorageConditionNeeds"])], [k!"BswMgrNeeds", k!"NvBlockNeeds", k!"DiagnosticCommunicationManagerNeeds", k!"DiagnosticRoutineNeeds", k!"DiagnosticValueNeeds", k!"DiagnosticEventNeeds", k!"DiagnosticEventInfoNeeds", k!"DiagnosticIoControlNeeds", k!"DiagnosticEnableConditionNeeds", k!"DiagnosticOperationCycleNeeds"], k!"writeDiagnosticStorageConditionNeeds_DiagnosticStorageConditionNeeds"⟩,
      ⟨[(false, [k!"IndicatorStatusNeeds"])], [k!"BswMgrNeeds", k!"NvBlockNeeds", k!"DiagnosticCommunicationManagerNeeds", k!"DiagnosticRoutineNeeds", k!"DiagnosticValueNeeds", k!"DiagnosticEventNeeds", k!"DiagnosticEventInfoNeeds", k!"DiagnosticIoControlNeeds", k!"DiagnosticEnableConditionNeeds", k!"DiagnosticOperationCycleNeeds", k!"DiagnosticStorageConditionNeeds"], k!"writeIndicatorStatusNeeds_IndicatorStatusNeeds"⟩,
      ⟨[(false, [k!"FunctionInhibitionAvailabilityNeeds"])], [k!"BswMgrNeeds", k!"NvBlockNeeds", k!"DiagnosticCommunicationManagerNeeds", k!"DiagnosticRoutineNeeds", k!"DiagnosticValueNeeds", k!"DiagnosticEventNeeds", k!"DiagnosticEventInfoNeeds", k!"DiagnosticIoControlNeeds", k!"DiagnosticEnableConditionNeeds", k!"DiagnosticOperationCycleNeeds", k!"DiagnosticStorageConditionNeeds", k!"IndicatorStatusNeeds"], k!"writeFunctionInhibitionAvailabilityNeeds_FunctionInhibitionAvailabilityNeeds"⟩,
      ⟨[(false, [k!"CryptoServiceNeeds"])], [k!"BswMgrNeeds", k!"NvBlockNeeds", k!"DiagnosticCommunicationManagerNeeds", k!"DiagnosticRoutineNeeds", k!"DiagnosticValueNeeds", k!"DiagnosticEventNeeds", k!"DiagnosticEventInfoNeeds", k!"DiagnosticIoControlNeeds", k!"DiagnosticEnableConditionNeeds", k!"DiagnosticOperationCycleNeeds", k!"DiagnosticStorageConditionNeeds", k!"IndicatorStatusNeeds", k!"FunctionInhibitionAvailabilityNeeds"], k!"writeCryptoServiceNeeds_CryptoServiceNeeds"⟩,
      ⟨[(false, [k!"EcuStateMgrUserNeeds"])], [k!"BswMgrNeeds", k!"NvBlockNeeds", k!"DiagnosticCommunicationManagerNeeds", k!"DiagnosticRoutineNeeds", k!"DiagnosticValueNeeds", k!"DiagnosticEventNeeds", k!"DiagnosticEventInfoNeeds", k!"DiagnosticIoControlNeeds", k!"DiagnosticEnableConditionNeeds", k!"DiagnosticOperationCycleNeeds", k!"DiagnosticStorageConditionNeeds", k!"IndicatorStatusNeeds", k!"FunctionInhibitionAvailabilityNeeds", k!"CryptoServiceNeeds"], k!"writeEcuStateMgrUserNeeds_EcuStateMgrUserNeeds"⟩,
      ⟨[(false, [k!"DtcStatusChangeNotificationNeeds"])], [k!"BswMgrNeeds", k!"NvBlockNeeds", k!"DiagnosticCommunicationManagerNeeds", k!"DiagnosticRoutineNeeds", k!"DiagnosticValueNeeds", k!"DiagnosticEventNeeds", k!"DiagnosticEventInfoNeeds", k!"DiagnosticIoControlNeeds", k!"DiagnosticEnableConditionNeeds", k!"DiagnosticOperationCycleNeeds", k!"DiagnosticStorageConditionNeeds", k!"IndicatorStatusNeeds", k!"FunctionInhibitionAvailabilityNeeds", k!"CryptoServiceNeeds", k!"EcuStateMgrUserNeeds"], k!"writeDtcStatusChangeNotificationNeeds_DtcStatusChangeNotificationNeeds"⟩,
      ⟨[(false, [k!"DltUserNeeds"])], [k!"BswMgrNeeds", k!"NvBlockNeeds", k!"DiagnosticCommunicationManagerNeeds", k!"DiagnosticRoutineNeeds", k!"DiagnosticValueNeeds", k!"DiagnosticEventNeeds", k!"DiagnosticEventInfoNeeds", k!"DiagnosticIoControlNeeds", k!"DiagnosticEnableConditionNeeds", k!"DiagnosticOperationCycleNeeds", k!"DiagnosticStorageConditionNeeds", k!"IndicatorStatusNeeds", k!"FunctionInhibitionAvailabilityNeeds", k!"CryptoServiceNeeds", k!"EcuStateMgrUserNeeds", k!"DtcStatusChangeNotificationNeeds"], k!"writeDltUserNeeds_DltUserNeeds"⟩,
      ⟨[(false, [k!"ComMgrUserNeeds"])], [k!"BswMgrNeeds", k!"NvBlockNeeds", k!"DiagnosticCommunicationManagerNeeds", k!"DiagnosticRoutineNeeds", k!"DiagnosticValueNeeds", k!"DiagnosticEventNeeds", k!"DiagnosticEventInfoNeeds", k!"DiagnosticIoControlNeeds", k!"DiagnosticEnableConditionNeeds", k!"DiagnosticOperationCycleNeeds", k!"DiagnosticStorageConditionNeeds", k!"IndicatorStatusNeeds", k!"FunctionInhibitionAvailabilityNeeds", k!"CryptoServiceNeeds", k!"EcuStateMgrUserNeeds", k!"DtcStatusChangeNotificationNeeds", k!"DltUserNeeds"], k!"writeComMgrUserNeeds_ComMgrUserNeeds"⟩,
      ⟨[(false, [k!"SupervisedEntityNeeds"])], [k!"BswMgrNeeds", k!"NvBlockNeeds", k!"DiagnosticCommunicationManagerNeeds", k!"DiagnosticRoutineNeeds", k!"DiagnosticValueNeeds", k!"DiagnosticEventNeeds", k!"DiagnosticEventInfoNeeds", k!"DiagnosticIoControlNeeds", k!"DiagnosticEnableConditionNeeds", k!"DiagnosticOperationCycleNeeds", k!"DiagnosticStorageConditionNeeds", k!"IndicatorStatusNeeds", k!"FunctionInhibitionAvailabilityNeeds", k!"CryptoServiceNeeds", k!"EcuStateMgrUserNeeds", k!"DtcStatusChangeNotificationNeeds", k!"DltUserNeeds", k!"ComMgrUserNeeds"], k!"writeSupervisedEntityNeeds_SupervisedEntityNeeds"⟩,
      ⟨[(false, [k!"ErrorTracerNeeds"])], [k!"BswMgrNeeds", k!"NvBlockNeeds", k!"DiagnosticCommunicationManagerNeeds", k!"DiagnosticRoutineNeeds", k!"DiagnosticValueNeeds", k!"DiagnosticEventNeeds", k!"DiagnosticEventInfoNeeds", k!"DiagnosticIoControlNeeds", k!"DiagnosticEnableConditionNeeds", k!"DiagnosticOperationCycleNeeds", k!"DiagnosticStorageConditionNeeds", k!"IndicatorStatusNeeds", k!"FunctionInhibitionAvailabilityNeeds", k!"CryptoServiceNeeds", k!"EcuStateMgrUserNeeds", k!"DtcStatusChangeNotificationNeeds", k!"DltUserNeeds", k!"ComMgrUserNeeds", k!"SupervisedEntityNeeds"], k!"writeErrorTracerNeeds_ErrorTracerNeeds"⟩,
      ⟨[(false, [k!"ObdInfoServiceNeeds"])], [k!"BswMgrNeeds", k!"NvBlockNeeds", k!"DiagnosticCommunicationManagerNeeds", k!"DiagnosticRoutineNeeds", k!"DiagnosticValueNeeds", k!"DiagnosticEventNeeds", k!"DiagnosticEventInfoNeeds", k!"DiagnosticIoControlNeeds", k!"DiagnosticEnableConditionNeeds", k!"DiagnosticOperationCycleNeeds", k!"DiagnosticStorageConditionNeeds", k!"IndicatorStatusNeeds", k!"FunctionInhibitionAvailabilityNeeds", k!"CryptoServiceNeeds", k!"EcuStateMgrUserNeeds", k!"DtcStatusChangeNotificationNeeds", k!"DltUserNeeds", k!"ComMgrUserNeeds", k!"SupervisedEntityNeeds", k!"ErrorTracerNeeds"], k!"writeObdInfoServiceNeeds_ObdInfoServiceNeeds"⟩,
      ⟨[(false, [k!"ObdMonitorServiceNeeds"])], [k!"BswMgrNeeds", k!"NvBlockNeeds", k!"DiagnosticCommunicationManagerNeeds", k!"DiagnosticRoutineNeeds", k!"DiagnosticValueNeeds", k!"DiagnosticEventNeeds", k!"DiagnosticEventInfoNeeds", k!"DiagnosticIoControlNeeds", k!"DiagnosticEnableConditionNeeds", k!"DiagnosticOperationCycleNeeds", k!"DiagnosticStorageConditionNeeds", k!"IndicatorStatusNeeds", k!"FunctionInhibitionAvailabilityNeeds", k!"CryptoServiceNeeds", k!"EcuStateMgrUserNeeds", k!"DtcStatusChangeNotificationNeeds", k!"DltUserNeeds", k!"ComMgrUserNeeds", k!"SupervisedEntityNeeds", k!"ErrorTracerNeeds", k!"ObdInfoServiceNeeds"], k!"writeObdMonitorServiceNeeds_ObdMonitorServiceNeeds"⟩,
      ⟨[(false, [k!"ObdPidServiceNeeds"])], [k!"BswMgrNeeds", k!"NvBlockNeeds", k!"DiagnosticCommunicationManagerNeeds", k!"DiagnosticRoutineNeeds", k!"DiagnosticValueNeeds", k!"DiagnosticEventNeeds", k!"DiagnosticEventInfoNeeds", k!"DiagnosticIoControlNeeds", k!"DiagnosticEnableConditionNeeds", k!"DiagnosticOperationCycleNeeds", k!"DiagnosticStorageConditionNeeds", k!"IndicatorStatusNeeds", k!"FunctionInhibitionAvailabilityNeeds", k!"CryptoServiceNeeds", k!"EcuStateMgrUserNeeds", k!"DtcStatusChangeNotificationNeeds", k!"DltUserNeeds", k!"ComMgrUserNeeds", k!"SupervisedEntityNeeds", k!"ErrorTracerNeeds", k!"ObdInfoServiceNeeds", k!"ObdMonitorServiceNeeds"], k!"writeObdPidServiceNeeds_ObdPidServiceNeeds"⟩,
      ⟨[(false, [k!"ObdControlServiceNeeds"])], [k!"BswMgrNeeds", k!"NvBlockNeeds", k!"DiagnosticCommunicationManagerNeeds", k!"DiagnosticRoutineNeeds", k!"DiagnosticValueNeeds", k!"DiagnosticEventNeeds", k!"DiagnosticEventInfoNeeds", k!"DiagnosticIoControlNeeds", k!"DiagnosticEnableConditionNeeds", k!"DiagnosticOperationCycleNeeds", k!"DiagnosticStorageConditionNeeds", k!"IndicatorStatusNeeds", k!"FunctionInhibitionAvailabilityNeeds", k!"CryptoServiceNeeds", k!"EcuStateMgrUserNeeds", k!"DtcStatusChangeNotificationNeeds", k!"DltUserNeeds", k!"ComMgrUserNeeds", k!"SupervisedEntityNeeds", k!"ErrorTracerNeeds", k!"ObdInfoServiceNeeds", k!"ObdMonitorServiceNeeds", k!"ObdPidServiceNeeds"], k!"writeObdControlServiceNeeds_ObdControlServiceNeeds"⟩,
      ⟨[(false, [k!"ObdRatioServiceNeeds"])], [k!"BswMgrNeeds", k!"NvBlockNeeds", k!"DiagnosticCommunicationManagerNeeds", k!"DiagnosticRoutineNeeds", k!"DiagnosticValueNeeds", k!"DiagnosticEventNeeds", k!"DiagnosticEventInfoNeeds", k!"DiagnosticIoControlNeeds", k!"DiagnosticEnableConditionNeeds", k!"DiagnosticOperationCycleNeeds", k!"DiagnosticStorageConditionNeeds", k!"IndicatorStatusNeeds", k!"FunctionInhibitionAvailabilityNeeds", k!"CryptoServiceNeeds", k!"EcuStateMgrUserNeeds", k!"DtcStatusChangeNotificationNeeds", k!"DltUserNeeds", k!"ComMgrUserNeeds", k!"SupervisedEntityNeeds", k!"ErrorTracerNeeds", k!"ObdInfoServiceNeeds", k!"ObdMonitorServiceNeeds", k!"ObdPidServiceNeeds", k!"ObdControlServiceNeeds"], k!"writeObdRatioServiceNeeds_ObdRatioServiceNeeds"⟩,
      ⟨[(false, [k!"ObdRatioDenominatorNeeds"])], [k!"BswMgrNeeds", k!"NvBlockNeeds", k!"DiagnosticCommunicationManagerNeeds", k!"DiagnosticRoutineNeeds", k!"DiagnosticValueNeeds", k!"DiagnosticEventNeeds", k!"DiagnosticEventInfoNeeds", k!"DiagnosticIoControlNeeds", k!"DiagnosticEnableConditionNeeds", k!"DiagnosticOperationCycleNeeds", k!"DiagnosticStorageConditionNeeds", k!"IndicatorStatusNeeds", k!"FunctionInhibitionAvailabilityNeeds", k!"CryptoServiceNeeds", k!"EcuStateMgrUserNeeds", k!"DtcStatusChangeNotificationNeeds", k!"DltUserNeeds", k!"ComMgrUserNeeds", k!"SupervisedEntityNeeds", k!"ErrorTracerNeeds", k!"ObdInfoServiceNeeds", k!"ObdMonitorServiceNeeds", k!"ObdPidServiceNeeds", k!"ObdControlServiceNeeds", k!"ObdRatioServiceNeeds"], k!"writeObdRatioDenominatorNeeds_ObdRatioDenominatorNeeds"⟩,
      ⟨[(false, [k!"DoIpRoutingActivationAuthenticationNeeds"])], [k!"BswMgrNeeds", k!"NvBlockNeeds", k!"DiagnosticCommunicationManagerNeeds", k!"DiagnosticRoutineNeeds", k!"DiagnosticValueNeeds", k!"DiagnosticEventNeeds", k!"DiagnosticEventInfoNeeds", k!"DiagnosticIoControlNeeds", k!"DiagnosticEnableConditionNeeds", k!"DiagnosticOperationCycleNeeds", k!"DiagnosticStorageConditionNeeds", k!"IndicatorStatusNeeds", k!"FunctionInhibitionAvailabilityNeeds", k!"CryptoServiceNeeds", k!"EcuStateMgrUserNeeds", k!"DtcStatusChangeNotificationNeeds", k!"DltUserNeeds", k!"ComMgrUserNeeds", k!"SupervisedEntityNeeds", k!"ErrorTracerNeeds", k!"ObdInfoServiceNeeds", k!"ObdMonitorServiceNeeds", k!"ObdPidServiceNeeds", k!"ObdControlServiceNeeds", k!"ObdRatioServiceNeeds", k!"ObdRatioDenominatorNeeds"], k!"writeDoIpRoutingActivationAuthenticationNeeds_DoIpRoutingActivationAuthenticationNeeds"⟩,
      ⟨[(false, [k!"DoIpRoutingActivationConfirmationNeeds"])], [k!"BswMgrNeeds", k!"NvBlockNeeds", k!"DiagnosticCommunicationManagerNeeds", k!"DiagnosticRoutineNeeds", k!"DiagnosticValueNeeds", k!"DiagnosticEventNeeds", k!"DiagnosticEventInfoNeeds", k!"DiagnosticIoControlNeeds", k!"DiagnosticEnableConditionNeeds", k!"DiagnosticOperationCycleNeeds", k!"DiagnosticStorageConditionNeeds", k!"IndicatorStatusNeeds", k!"FunctionInhibitionAvailabilityNeeds", k!"CryptoServiceNeeds", k!"EcuStateMgrUserNeeds", k!"DtcStatusChangeNotificationNeeds", k!"DltUserNeeds", k!"ComMgrUserNeeds", k!"SupervisedEntityNeeds", k!"ErrorTracerNeeds", k!"ObdInfoServiceNeeds", k!"ObdMonitorServiceNeeds", k!"ObdPidServiceNeeds", k!"ObdControlServiceNeeds", k!"ObdRatioServiceNeeds", k!"ObdRatioDenominatorNeeds", k!"DoIpRoutingActivationAuthenticationNeeds"], k!"writeDoIpRoutingActivationConfirmationNeeds_DoIpRoutingActivationConfirmationNeeds"⟩,
      ⟨[(false, [k!"SecureOnBoardCommunicationNeeds"])], [k!"BswMgrNeeds", k!"NvBlockNeeds", k!"DiagnosticCommunicationManagerNeeds", k!"DiagnosticRoutineNeeds", k!"DiagnosticValueNeeds", k!"DiagnosticEventNeeds", k!"DiagnosticEventInfoNeeds", k!"DiagnosticIoControlNeeds", k!"DiagnosticEnableConditionNeeds", k!"DiagnosticOperationCycleNeeds", k!"DiagnosticStorageConditionNeeds", k!"IndicatorStatusNeeds", k!"FunctionInhibitionAvailabilityNeeds", k!"CryptoServiceNeeds", k!"EcuStateMgrUserNeeds", k!"DtcStatusChangeNotificationNeeds", k!"DltUserNeeds", k!"ComMgrUserNeeds", k!"SupervisedEntityNeeds", k!"ErrorTracerNeeds", k!"ObdInfoServiceNeeds", k!"ObdMonitorServiceNeeds", k!"ObdPidServiceNeeds", k!"ObdControlServiceNeeds", k!"ObdRatioServiceNeeds", k!"ObdRatioDenominatorNeeds", k!"DoIpRoutingActivationAuthenticationNeeds", k!"DoIpRoutingActivationConfirmationNeeds"], k!"writeSecureOnBoardCommunicationNeeds_SecureOnBoardCommunicationNeeds"⟩,
      ⟨[(false, [k!"IdsMgrNeeds"])], [k!"BswMgrNeeds", k!"NvBlockNeeds", k!"DiagnosticCommunicationManagerNeeds", k!"DiagnosticRoutineNeeds", k!"DiagnosticValueNeeds", k!"DiagnosticEventNeeds", k!"DiagnosticEventInfoNeeds", k!"DiagnosticIoControlNeeds", k!"DiagnosticEnableConditionNeeds", k!"DiagnosticOperationCycleNeeds", k!"DiagnosticStorageConditionNeeds", k!"IndicatorStatusNeeds", k!"FunctionInhibitionAvailabilityNeeds", k!"CryptoServiceNeeds", k!"EcuStateMgrUserNeeds", k!"DtcStatusChangeNotificationNeeds", k!"DltUserNeeds", k!"ComMgrUserNeeds", k!"SupervisedEntityNeeds", k!"ErrorTracerNeeds", k!"ObdInfoServiceNeeds", k!"ObdMonitorServiceNeeds", k!"ObdPidServiceNeeds", k!"ObdControlServiceNeeds", k!"ObdRatioServiceNeeds", k!"ObdRatioDenominatorNeeds", k!"DoIpRoutingActivationAuthenticationNeeds", k!"DoIpRoutingActivationConfirmationNeeds", k!"SecureOnBoardCommunicationNeeds"], k!"writeIdsMgrNeeds_IdsMgrNeeds"⟩] .unsupported <|
    .nil) <|
  .nil

/-- `writeServiceDependencyAssignedDataType`, `writer/arxml_writer.py:3335-3343` -/
def writeServiceDependencyAssignedDataType_ServiceDependency : WB :=
  /- 3338 -/ .wrap (.any [(k!"assignedDataTypes", [])]) k!"ASSIGNED-DATA-TYPES" (
    /- 3341 -/ .each k!"assignedDataTypes" [] .plain [⟨[(false, [k!"RoleBasedDataTypeAssignment"])], [], k!"writeRoleBasedDataTypeAssignment_RoleBasedDataTypeAssignment"⟩] .unsupported <|
    .nil) <|
  .nil

/-- `writeSymbolicNameProps`, `writer/arxml_writer.py:3350-3355` -/
def writeSymbolicNameProps_ServiceDependency : WB :=
  /- 3354 -/ .each k!"symbolicNameProps" [] .plain [⟨[], [], k!"writeSymbolicNameProps_ServiceDependency_L3354"⟩] .skip <|
  .nil

/-- `writeBswServiceDependency`, `writer/arxml_writer.py:3455-3465` -/
def writeBswServiceDependency_BswServiceDependency : WB :=
  /- 3456 -/ .wrap .always k!"BSW-SERVICE-DEPENDENCY" (
    /- 3457 -/ .attr k!"T" .raw k!"timestamp" <|
    /- 3457 -/ .attr k!"UUID" .raw k!"uuid" <|
    /- 3460 -/ .each k!"ident" [] .plain [⟨[], [], k!"writeBswServiceDependencyIdent_BswServiceDependencyIdent"⟩] .skip <|
    /- 3461 -/ writeServiceDependencyAssignedDataType_ServiceDependency.app <|
    /- 3462 -/ writeBswServiceDependencyAssignedData_BswServiceDependency.app <|
    /- 3463 -/ writeBswServiceDependencyAssignedEntryRoles_BswServiceDependency.app <|
    /- 3464 -/ writeBswServiceDependencyServiceNeeds_BswServiceDependency.app <|
    /- 3465 -/ writeSymbolicNameProps_ServiceDependency.app <|
    .nil) <|
  .nil

/-- `writeBswSynchronousServerCallPoint`, `writer/arxml_writer.py:4830-4833` -/
def writeBswSynchronousServerCallPoint_BswSynchronousServerCallPoint : WB :=
  /- 4831 -/ .wrap .always k!"BSW-SYNCHRONOUS-SERVER-CALL-POINT" (
    /- 4832 -/ writeBswModuleCallPoint_BswModuleCallPoint.app <|
    /- 4833 -/ .prim k!"CALLED-ENTRY-REF" .ref k!"calledEntryRef" <|
    .nil) <|
  .nil

/-- `writeBswTimingEvent`, `writer/arxml_writer.py:4908-4912` -/
def writeBswTimingEvent_BswTimingEvent : WB :=
  /- 4910 -/ .wrap .always k!"BSW-TIMING-EVENT" (
    /- 4911 -/ writeBswScheduleEvent_BswScheduleEvent.app <|
    /- 4912 -/ .prim k!"PERIOD" .lit k!"period" <|
    .nil) <|
  .nil

/-- `writeBswVariableAccess`, `writer/arxml_writer.py:4780-4784` -/
def writeBswVariableAccess_BswVariableAccess : WB :=
  /- 4782 -/ .wrap .always k!"BSW-VARIABLE-ACCESS" (
    /- 4783 -/ writeReferrable_ARPackage.app <|
    /- 4784 -/ .prim k!"ACCESSED-VARIABLE-REF" .ref k!"accessedVariableRef" <|
    .nil) <|
  .nil

/-- `writeBulkNvDataDescriptor`, `writer/arxml_writer.py:2734-2745` -/
def writeBulkNvDataDescriptor_BulkNvDataDescriptor : WB :=
  /- 2735 -/ .wrap .always k!"BULK-NV-DATA-DESCRIPTOR" (
    /- 2736 -/ writeIdentifiable_ARPackage.app <|
    /- 2739 -/ .wrap (.any [(k!"bulkNvBlock", [])]) k!"BULK-NV-BLOCK" (
      /- 2739 -/ .each k!"bulkNvBlock" [] .plain [⟨[], [], k!"writeVariableDataPrototype_VariableDataPrototype"⟩] .skip <|
      .nil) <|
    /- 2743 -/ .wrap (.any [(k!"nvBlockDataMappings", [])]) k!"NV-BLOCK-DATA-MAPPINGS" (
      /- 2745 -/ .each k!"nvBlockDataMappings" [] .plain [⟨[], [], k!"writeNvBlockDataMapping_NvBlockDataMapping"⟩] .skip <|
      .nil) <|
    .nil) <|
  .nil

/-- `writeVariableDataPrototype`, `writer/arxml_writer.py:4652-4656`; also `writeBulkNvDataDescriptor` -/
def writeVariableDataPrototype_VariableDataPrototype : WB :=
  /- 4654 -/ .wrap .always k!"VARIABLE-DATA-PROTOTYPE" (
    /- 4655 -/ writeAutosarDataPrototype_AutosarDataPrototype.app <|
    /- 1251 -/ .wrap (.any [(k!"initValue", [])]) k!"INIT-VALUE" (
      /- 1253 -/ .each k!"initValue" [] .plain [⟨[(false, [k!"ApplicationValueSpecification"])], [], k!"writeApplicationValueSpecification_ApplicationValueSpecification"⟩,
        ⟨[(false, [k!"ApplicationRuleBasedValueSpecification"])], [k!"ApplicationValueSpecification"], k!"writeApplicationRuleBasedValueSpecification_ApplicationRuleBasedValueSpecification"⟩,
        ⟨[(false, [k!"CompositeRuleBasedValueSpecification"])], [k!"ApplicationValueSpecification", k!"ApplicationRuleBasedValueSpecification"], k!"writeCompositeRuleBasedValueSpecification_CompositeRuleBasedValueSpecification"⟩,
        ⟨[(false, [k!"TextValueSpecification"])], [k!"ApplicationValueSpecification", k!"ApplicationRuleBasedValueSpecification", k!"CompositeRuleBasedValueSpecification"], k!"writeTextValueSpecification_TextValueSpecification"⟩,
        ⟨[(false, [k!"ConstantReference"])], [k!"ApplicationValueSpecification", k!"ApplicationRuleBasedValueSpecification", k!"CompositeRuleBasedValueSpecification", k!"TextValueSpecification"], k!"setConstantReference_ConstantReference"⟩,
        ⟨[(false, [k!"NumericalValueSpecification"])], [k!"ApplicationValueSpecification", k!"ApplicationRuleBasedValueSpecification", k!"CompositeRuleBasedValueSpecification", k!"TextValueSpecification", k!"ConstantReference"], k!"writeNumericalValueSpecification_NumericalValueSpecification"⟩,
        ⟨[(false, [k!"ArrayValueSpecification"])], [k!"ApplicationValueSpecification", k!"ApplicationRuleBasedValueSpecification", k!"CompositeRuleBasedValueSpecification", k!"TextValueSpecification", k!"ConstantReference", k!"NumericalValueSpecification"], k!"writeArrayValueSpecification_ArrayValueSpecification"⟩,
        ⟨[(false, [k!"RecordValueSpecification"])], [k!"ApplicationValueSpecification", k!"ApplicationRuleBasedValueSpecification", k!"CompositeRuleBasedValueSpecification", k!"TextValueSpecification", k!"ConstantReference", k!"NumericalValueSpecification", k!"ArrayValueSpecification"], k!"writeRecordValueSpecification_RecordValueSpecification"⟩] .unsupported <|
      .nil) <|
    .nil) <|
  .nil

/-- `writeBusDependentNmEcus`, `writer/arxml_writer.py:5918-5926` -/
def writeBusDependentNmEcus_NmEcu : WB :=
  /- 5921 -/ .wrap (.any [(k!"busDependentNmEcus", [])]) k!"BUS-DEPENDENT-NM-ECUS" (
    /- 5924 -/ .each k!"busDependentNmEcus" [] .plain [⟨[(false, [k!"UdpNmEcu"])], [], k!"writeUdpNmEcu_UdpNmEcu"⟩] .unsupported <|
    .nil) <|
  .nil

/-- `writeCommunicationClusterPhysicalChannels`, `writer/arxml_writer.py:6794-6808` -/
def writeCommunicationClusterPhysicalChannels_CommunicationCluster : WB :=
  /- 6797 -/ .wrap (.any [(k!"physicalChannel", [])]) k!"PHYSICAL-CHANNELS" (
    /- 6800 -/ .each k!"physicalChannel" [] .sorted [⟨[(false, [k!"CanPhysicalChannel"])], [], k!"writeCanPhysicalChannel_CanPhysicalChannel"⟩,
      ⟨[(false, [k!"LinPhysicalChannel"])], [k!"CanPhysicalChannel"], k!"writeLinPhysicalChannel_LinPhysicalChannel"⟩,
      ⟨[(false, [k!"EthernetPhysicalChannel"])], [k!"CanPhysicalChannel", k!"LinPhysicalChannel"], k!"writeEthernetPhysicalChannel_EthernetPhysicalChannel"⟩,
      ⟨[(false, [k!"FlexrayPhysicalChannel"])], [k!"CanPhysicalChannel", k!"LinPhysicalChannel", k!"EthernetPhysicalChannel"], k!"writeFlexrayPhysicalChannel_FlexrayPhysicalChannel"⟩] .unsupported <|
    .nil) <|
  .nil

end Verif.Gen.W
