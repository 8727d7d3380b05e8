import Verif.Model.Bst
/-! Generated by `tools/gen_create.py`: the classes of `/repo/src/armodel/models/**` with their ancestors
(method resolution order, the class itself first; only classes defined in the repository). -/
namespace Verif.Gen
open Verif

def classTable00 : Bst (List Key) :=
 (.node (.node (.node (.node (.node .nil
     -- M2/MSR/AsamHdo/SpecialData.py:9
     k!"Sd" [k!"Sd", k!"ARObject"]
     .nil)
    -- M2/MSR/Documentation/TextModel/InlineTextElements.py:24
    k!"Tt" [k!"Tt", k!"ARObject"]
    .nil)
   -- M2/MSR/Documentation/BlockElements/Figure.py:99
   k!"Map" [k!"Map", k!"ARObject"]
   (.node .nil
    -- M2/AUTOSARTemplates/SystemTemplate/Fibex/FibexCore/CoreCommunication.py:375
    k!"Pdu" [k!"Pdu", k!"FibexElement", k!"PackageableElement", k!"Identifiable", k!"MultilanguageReferrable", k!"Referrable", k!"ARObject"]
    .nil))
  -- M2/MSR/AsamHdo/SpecialData.py:115
  k!"Sdf" [k!"Sdf", k!"ARObject"]
  (.node (.node .nil
    -- M2/MSR/AsamHdo/SpecialData.py:278
    k!"Sdg" [k!"Sdg", k!"ARObject"]
    .nil)
   -- M2/AUTOSARTemplates/CommonStructure/Implementation.py:142
   k!"Code" [k!"Code", k!"Identifiable", k!"MultilanguageReferrable", k!"Referrable", k!"ARObject"]
   (.node .nil
    -- M2/AUTOSARTemplates/SystemTemplate/Fibex/FibexCore/CoreCommunication.py:433
    k!"IPdu" [k!"IPdu", k!"Pdu", k!"FibexElement", k!"PackageableElement", k!"Identifiable", k!"MultilanguageReferrable", k!"Referrable", k!"ARObject"]
    .nil)))
 -- M2/MSR/Documentation/TextModel/BlockElements/ListElements.py:32
 k!"Item" [k!"Item", k!"Paginateable", k!"DocumentViewSelectable", k!"ARObject"]
 (.node (.node (.node .nil
    -- M2/AUTOSARTemplates/SystemTemplate/Fibex/FibexCore/CoreCommunication.py:1033
    k!"NPdu" [k!"NPdu", k!"IPdu", k!"Pdu", k!"FibexElement", k!"PackageableElement", k!"Identifiable", k!"MultilanguageReferrable", k!"Referrable", k!"ARObject"]
    .nil)
   -- M2/MSR/Documentation/TextModel/BlockElements/Note.py:54
   k!"Note" [k!"Note", k!"ARObject"]
   (.node .nil
    -- M2/MSR/AsamHdo/Units.py:179
    k!"Unit" [k!"Unit", k!"ARElement", k!"PackageableElement", k!"Identifiable", k!"MultilanguageReferrable", k!"Referrable", k!"ARObject"]
    .nil))
  -- M2/MSR/AsamHdo/ComputationMethod.py:53
  k!"Compu" [k!"Compu", k!"ARObject"]
  (.node (.node .nil
    -- M2/AUTOSARTemplates/AdaptivePlatform/ApplicationDesign/PortInterface/Field.py:7
    k!"Field" [k!"Field", k!"AutosarDataPrototype", k!"DataPrototype", k!"AtpPrototype", k!"AtpBlueprintable", k!"PackageableElement", k!"Identifiable", k!"MultilanguageReferrable", k!"Referrable", k!"ARObject"]
    .nil)
   -- M2/AUTOSARTemplates/GenericStructure/GeneralTemplateClasses/PrimitiveTypes.py:224
   k!"Float" [k!"Float", k!"ARFloat", k!"ARNumerical", k!"ARType"]
   (.node .nil
    -- M2/AUTOSARTemplates/SystemTemplate/Fibex/FibexCore/CoreCommunication.py:93
    k!"Frame" [k!"Frame", k!"FibexElement", k!"PackageableElement", k!"Identifiable", k!"MultilanguageReferrable", k!"Referrable", k!"ARObject"]
    .nil))))

def classTable01 : Bst (List Key) :=
 (.node (.node (.node (.node (.node .nil
     -- M2/MSR/Documentation/TextModel/LanguageDataModel.py:17
     k!"LEnum" [k!"LEnum", k!"AREnum", k!"ARLiteral", k!"ARType"]
     .nil)
    -- M2/AUTOSARTemplates/GenericStructure/GeneralTemplateClasses/PrimitiveTypes.py:938
    k!"Limit" [k!"Limit", k!"ARObject"]
    .nil)
   -- M2/AUTOSARTemplates/SystemTemplate/NetworkManagement.py:802
   k!"NmEcu" [k!"NmEcu", k!"Identifiable", k!"MultilanguageReferrable", k!"Referrable", k!"ARObject"]
   (.node .nil
    -- M2/AUTOSARTemplates/SystemTemplate/Fibex/FibexCore/CoreCommunication.py:972
    k!"NmPdu" [k!"NmPdu", k!"Pdu", k!"FibexElement", k!"PackageableElement", k!"Identifiable", k!"MultilanguageReferrable", k!"Referrable", k!"ARObject"]
    .nil))
  -- M2/AUTOSARTemplates/SystemTemplate/Fibex/Fibex4Ethernet/ServiceInstances.py:143
  k!"TcpTp" [k!"TcpTp", k!"TcpUdpConfig", k!"TransportProtocolConfiguration", k!"ARObject"]
  (.node (.node .nil
    -- M2/AUTOSARTemplates/SystemTemplate/Fibex/Fibex4Ethernet/ServiceInstances.py:118
    k!"UdpTp" [k!"UdpTp", k!"TcpUdpConfig", k!"TransportProtocolConfiguration", k!"ARObject"]
    .nil)
   -- M2/AUTOSARTemplates/GenericStructure/GeneralTemplateClasses/PrimitiveTypes.py:298
   k!"AREnum" [k!"AREnum", k!"ARLiteral", k!"ARType"]
   (.node .nil
    -- M2/MSR/Documentation/TextModel/BlockElements/ListElements.py:55
    k!"ARList" [k!"ARList", k!"Paginateable", k!"DocumentViewSelectable", k!"ARObject"]
    .nil)))
 -- M2/AUTOSARTemplates/GenericStructure/GeneralTemplateClasses/PrimitiveTypes.py:12
 k!"ARType" [k!"ARType"]
 (.node (.node (.node .nil
    -- M2/AUTOSARTemplates/EcuResourceTemplate/HwElementCategory.py:25
    k!"HwType" [k!"HwType", k!"HwDescriptionEntity", k!"Referrable", k!"ARObject"]
    .nil)
   -- M2/AUTOSARTemplates/CommonStructure/Implementation.py:449
   k!"Linker" [k!"Linker", k!"Identifiable", k!"MultilanguageReferrable", k!"Referrable", k!"ARObject"]
   (.node .nil
    -- M2/AUTOSARTemplates/SystemTemplate/NetworkManagement.py:135
    k!"NmNode" [k!"NmNode", k!"Identifiable", k!"MultilanguageReferrable", k!"Referrable", k!"ARObject"]
    .nil))
  -- M2/AUTOSARTemplates/GenericStructure/GeneralTemplateClasses/PrimitiveTypes.py:352
  k!"String" [k!"String", k!"ARLiteral", k!"ARType"]
  (.node (.node .nil
    -- M2/AUTOSARTemplates/SystemTemplate/__init__.py:496
    k!"System" [k!"System", k!"AtpStructureElement", k!"AtpBlueprintable", k!"PackageableElement", k!"Identifiable", k!"MultilanguageReferrable", k!"Referrable", k!"ARObject"]
    .nil)
   -- M2/MSR/Documentation/Chapters.py:422
   k!"Topic1" [k!"Topic1", k!"Identifiable", k!"MultilanguageReferrable", k!"Referrable", k!"ARObject"]
   (.node .nil
    -- M2/AUTOSARTemplates/SystemTemplate/Fibex/Fibex4Ethernet/ServiceInstances.py:83
    k!"TpPort" [k!"TpPort", k!"ARObject"]
    .nil))))

-- M2/AUTOSARTemplates/EcuResourceTemplate/__init__.py:114
def classTable02 : Bst (List Key) :=
 .node classTable00 k!"HwPin" [k!"HwPin", k!"HwDescriptionEntity", k!"Referrable", k!"ARObject"] classTable01

def classTable03 : Bst (List Key) :=
 (.node (.node (.node (.node (.node .nil
     -- M2/AUTOSARTemplates/AutosarTopLevelStructure/__init__.py:354
     k!"AUTOSAR" [k!"AUTOSAR", k!"AbstractAUTOSAR", k!"CollectableElement", k!"ARObject"]
     .nil)
    -- M2/AUTOSARTemplates/GenericStructure/AbstractStructure.py:189
    k!"AtpType" [k!"AtpType", k!"AtpClassifier", k!"PackageableElement", k!"Identifiable", k!"MultilanguageReferrable", k!"Referrable", k!"ARObject"]
    .nil)
   -- M2/AUTOSARTemplates/GenericStructure/GeneralTemplateClasses/PrimitiveTypes.py:736
   k!"Boolean" [k!"Boolean", k!"ARBoolean", k!"ARType"]
   (.node .nil
    -- M2/MSR/Documentation/BlockElements/__init__.py:12
    k!"Caption" [k!"Caption", k!"MultilanguageReferrable", k!"Referrable", k!"ARObject"]
    .nil))
  -- M2/MSR/Documentation/Chapters.py:23
  k!"Chapter" [k!"Chapter", k!"Identifiable", k!"MultilanguageReferrable", k!"Referrable", k!"ARObject"]
  (.node (.node .nil
    -- M2/AUTOSARTemplates/SystemTemplate/Fibex/FibexCore/CoreCommunication.py:1046
    k!"DcmIPdu" [k!"DcmIPdu", k!"IPdu", k!"Pdu", k!"FibexElement", k!"PackageableElement", k!"Identifiable", k!"MultilanguageReferrable", k!"Referrable", k!"ARObject"]
    .nil)
   -- M2/MSR/Documentation/TextModel/BlockElements/ListElements.py:338
   k!"DefItem" [k!"DefItem", k!"ARObject"]
   (.node .nil
    -- M2/MSR/Documentation/TextModel/BlockElements/ListElements.py:391
    k!"DefList" [k!"DefList", k!"ARObject"]
    .nil)))
 -- M2/AUTOSARTemplates/CommonStructure/FlatMap.py:168
 k!"FlatMap" [k!"FlatMap", k!"AtpBlueprintable", k!"PackageableElement", k!"Identifiable", k!"MultilanguageReferrable", k!"Referrable", k!"ARObject"]
 (.node (.node (.node .nil
    -- M2/AUTOSARTemplates/SystemTemplate/Fibex/Fibex4Multiplatform.py:251
    k!"Gateway" [k!"Gateway", k!"FibexElement", k!"PackageableElement", k!"Identifiable", k!"MultilanguageReferrable", k!"Referrable", k!"ARObject"]
    .nil)
   -- M2/MSR/Documentation/BlockElements/Figure.py:20
   k!"Graphic" [k!"Graphic", k!"EngineeringObject", k!"ARObject"]
   (.node .nil
    -- M2/AUTOSARTemplates/SystemTemplate/Fibex/FibexCore/CoreCommunication.py:1264
    k!"ISignal" [k!"ISignal", k!"FibexElement", k!"PackageableElement", k!"Identifiable", k!"MultilanguageReferrable", k!"Referrable", k!"ARObject"]
    .nil))
  -- M2/AUTOSARTemplates/GenericStructure/GeneralTemplateClasses/PrimitiveTypes.py:696
  k!"Integer" [k!"Integer", k!"ARNumerical", k!"ARType"]
  (.node (.node .nil
    -- M2/AUTOSARTemplates/CommonStructure/StandardizationTemplate/Keyword.py:14
    k!"Keyword" [k!"Keyword", k!"Identifiable", k!"MultilanguageReferrable", k!"Referrable", k!"ARObject"]
    .nil)
   -- M2/AUTOSARTemplates/CommonStructure/McGroups.py:14
   k!"McGroup" [k!"McGroup", k!"ARElement", k!"PackageableElement", k!"Identifiable", k!"MultilanguageReferrable", k!"Referrable", k!"ARObject"]
   (.node .nil
    -- M2/AUTOSARTemplates/GenericStructure/GeneralTemplateClasses/PrimitiveTypes.py:1009
    k!"RefType" [k!"RefType", k!"ARObject"]
    .nil))))

def classTable04 : Bst (List Key) :=
 (.node (.node (.node (.node .nil
    -- utils/uuid_mgr.py:4
    k!"UUIDMgr" [k!"UUIDMgr"]
    .nil)
   -- M2/AUTOSARTemplates/GenericStructure/GeneralTemplateClasses/ArObject.py:10
   k!"ARObject" [k!"ARObject"]
   (.node .nil
    -- M2/MSR/AsamHdo/BaseTypes.py:151
    k!"BaseType" [k!"BaseType", k!"ARElement", k!"PackageableElement", k!"Identifiable", k!"MultilanguageReferrable", k!"Referrable", k!"ARObject"]
    .nil))
  -- M2/AUTOSARTemplates/BswModuleTemplate/BswBehavior/__init__.py:853
  k!"BswEvent" [k!"BswEvent", k!"AbstractEvent", k!"Identifiable", k!"MultilanguageReferrable", k!"Referrable", k!"ARObject"]
  (.node (.node .nil
    -- M2/AUTOSARTemplates/SystemTemplate/Fibex/Fibex4Can/CanCommunication.py:44
    k!"CanFrame" [k!"CanFrame", k!"Frame", k!"FibexElement", k!"PackageableElement", k!"Identifiable", k!"MultilanguageReferrable", k!"Referrable", k!"ARObject"]
    .nil)
   -- M2/AUTOSARTemplates/SystemTemplate/NetworkManagement.py:737
   k!"CanNmEcu" [k!"CanNmEcu", k!"BusspecificNmEcu", k!"ARObject"]
   (.node .nil
    -- M2/AUTOSARTemplates/SystemTemplate/TransportProtocols.py:350
    k!"CanTpEcu" [k!"CanTpEcu", k!"ARObject"]
    .nil)))
 -- M2/AUTOSARTemplates/CommonStructure/Implementation.py:232
 k!"Compiler" [k!"Compiler", k!"Identifiable", k!"MultilanguageReferrable", k!"Referrable", k!"ARObject"]
 (.node (.node (.node .nil
    -- M2/AUTOSARTemplates/GenericStructure/GeneralTemplateClasses/PrimitiveTypes.py:1326
    k!"DateTime" [k!"DateTime", k!"ARLiteral", k!"ARType"]
    .nil)
   -- M2/AUTOSARTemplates/SystemTemplate/Fibex/FibexCore/CoreTopology.py:838
   k!"IPduPort" [k!"IPduPort", k!"CommConnectorPort", k!"Identifiable", k!"MultilanguageReferrable", k!"Referrable", k!"ARObject"]
   (.node .nil
    -- M2/MSR/Documentation/BlockElements/Figure.py:111
    k!"LGraphic" [k!"LGraphic", k!"LanguageSpecific", k!"ARObject"]
    .nil))
  -- M2/AUTOSARTemplates/SystemTemplate/Fibex/Fibex4Lin/LinCommunication.py:11
  k!"LinFrame" [k!"LinFrame", k!"Frame", k!"FibexElement", k!"PackageableElement", k!"Identifiable", k!"MultilanguageReferrable", k!"Referrable", k!"ARObject"]
  (.node (.node .nil
    -- M2/MSR/Documentation/TextModel/BlockElements/ListElements.py:15
    k!"ListEnum" [k!"ListEnum", k!"AREnum", k!"ARLiteral", k!"ARType"]
    .nil)
   -- M2/MSR/Documentation/BlockElements/Figure.py:175
   k!"MlFigure" [k!"MlFigure", k!"Paginateable", k!"DocumentViewSelectable", k!"ARObject"]
   (.node .nil
    -- M2/AUTOSARTemplates/SystemTemplate/NetworkManagement.py:960
    k!"NmConfig" [k!"NmConfig", k!"FibexElement", k!"PackageableElement", k!"Identifiable", k!"MultilanguageReferrable", k!"Referrable", k!"ARObject"]
    .nil))))

-- M2/AUTOSARTemplates/CommonStructure/TriggerDeclaration.py:13
def classTable05 : Bst (List Key) :=
 .node classTable03 k!"Trigger" [k!"Trigger", k!"AtpStructureElement", k!"AtpBlueprintable", k!"PackageableElement", k!"Identifiable", k!"MultilanguageReferrable", k!"Referrable", k!"ARObject"] classTable04

-- M2/AUTOSARTemplates/GenericStructure/GeneralTemplateClasses/PrimitiveTypes.py:183
def classTable06 : Bst (List Key) :=
 .node classTable02 k!"ARFloat" [k!"ARFloat", k!"ARNumerical", k!"ARType"] classTable05

def classTable07 : Bst (List Key) :=
 (.node (.node (.node (.node (.node .nil
     -- M2/MSR/CalibrationData/CalibrationValue.py:7
     k!"SwValues" [k!"SwValues", k!"ARObject"]
     .nil)
    -- M2/AUTOSARTemplates/GenericStructure/GeneralTemplateClasses/PrimitiveTypes.py:1116
    k!"TRefType" [k!"TRefType", k!"RefType", k!"ARObject"]
    .nil)
   -- M2/AUTOSARTemplates/SystemTemplate/TransportProtocols.py:14
   k!"TpConfig" [k!"TpConfig", k!"FibexElement", k!"PackageableElement", k!"Identifiable", k!"MultilanguageReferrable", k!"Referrable", k!"ARObject"]
   (.node .nil
    -- M2/AUTOSARTemplates/SystemTemplate/NetworkManagement.py:776
    k!"UdpNmEcu" [k!"UdpNmEcu", k!"BusspecificNmEcu", k!"ARObject"]
    .nil))
  -- M2/AUTOSARTemplates/GenericStructure/GeneralTemplateClasses/PrimitiveTypes.py:563
  k!"ARBoolean" [k!"ARBoolean", k!"ARType"]
  (.node (.node .nil
    -- M2/AUTOSARTemplates/GenericStructure/GeneralTemplateClasses/Identifiable.py:639
    k!"ARElement" [k!"ARElement", k!"PackageableElement", k!"Identifiable", k!"MultilanguageReferrable", k!"Referrable", k!"ARObject"]
    .nil)
   -- M2/AUTOSARTemplates/GenericStructure/GeneralTemplateClasses/PrimitiveTypes.py:255
   k!"ARLiteral" [k!"ARLiteral", k!"ARType"]
   (.node .nil
    -- M2/AUTOSARTemplates/GenericStructure/GeneralTemplateClasses/ARPackage.py:299
    k!"ARPackage" [k!"ARPackage", k!"CollectableElement", k!"ARObject"]
    .nil)))
 -- M2/MSR/AsamHdo/AdminData.py:137
 k!"AdminData" [k!"AdminData", k!"ARObject"]
 (.node (.node (.node .nil
    -- M2/AUTOSARTemplates/SystemTemplate/NetworkManagement.py:309
    k!"CanNmNode" [k!"CanNmNode", k!"NmNode", k!"Identifiable", k!"MultilanguageReferrable", k!"Referrable", k!"ARObject"]
    .nil)
   -- M2/AUTOSARTemplates/SystemTemplate/TransportProtocols.py:387
   k!"CanTpNode" [k!"CanTpNode", k!"Identifiable", k!"MultilanguageReferrable", k!"Referrable", k!"ARObject"]
   (.node .nil
    -- M2/AUTOSARTemplates/ECUCParameterDefTemplate.py:2261
    k!"EcucQuery" [k!"EcucQuery", k!"Identifiable", k!"MultilanguageReferrable", k!"Referrable", k!"ARObject"]
    .nil))
  -- M2/MSR/Documentation/BlockElements/OasisExchangeTable.py:6
  k!"FloatEnum" [k!"FloatEnum", k!"AREnum", k!"ARLiteral", k!"ARType"]
  (.node (.node .nil
    -- M2/AUTOSARTemplates/SystemTemplate/Fibex/FibexCore/CoreTopology.py:812
    k!"FramePort" [k!"FramePort", k!"CommConnectorPort", k!"Identifiable", k!"MultilanguageReferrable", k!"Referrable", k!"ARObject"]
    .nil)
   -- M2/AUTOSARTemplates/SystemTemplate/Fibex/Fibex4Ethernet/ServiceInstances.py:31
   k!"GenericTp" [k!"GenericTp", k!"TransportProtocolConfiguration", k!"ARObject"]
   (.node .nil
    -- M2/AUTOSARTemplates/CommonStructure/ResourceConsumption/HeapUsage.py:19
    k!"HeapUsage" [k!"HeapUsage", k!"Identifiable", k!"MultilanguageReferrable", k!"Referrable", k!"ARObject"]
    .nil))))

def classTable08 : Bst (List Key) :=
 (.node (.node (.node (.node (.node .nil
     -- M2/AUTOSARTemplates/SWComponentTemplate/SwcInternalBehavior/RTEEvents.py:371
     k!"InitEvent" [k!"InitEvent", k!"RTEEvent", k!"AtpStructureElement", k!"AtpBlueprintable", k!"PackageableElement", k!"AbstractEvent", k!"Identifiable", k!"MultilanguageReferrable", k!"Referrable", k!"ARObject"]
     .nil)
    -- M2/MSR/Documentation/TextModel/LanguageDataModel.py:332
    k!"LLongName" [k!"LLongName", k!"MixedContentForLongName", k!"LanguageSpecific", k!"ARObject"]
    .nil)
   -- M2/MSR/Documentation/TextModel/LanguageDataModel.py:378
   k!"LVerbatim" [k!"LVerbatim", k!"LanguageSpecific", k!"ARObject"]
   (.node .nil
    -- M2/AUTOSARTemplates/SystemTemplate/Fibex/Fibex4Lin/LinTopology.py:35
    k!"LinMaster" [k!"LinMaster", k!"LinCommunicationController", k!"CommunicationController", k!"Identifiable", k!"MultilanguageReferrable", k!"Referrable", k!"ARObject"]
    .nil))
  -- M2/AUTOSARTemplates/SystemTemplate/TransportProtocols.py:807
  k!"LinTpNode" [k!"LinTpNode", k!"Identifiable", k!"MultilanguageReferrable", k!"Referrable", k!"ARObject"]
  (.node (.node .nil
    -- M2/MSR/Documentation/BlockElements/Formula.py:9
    k!"MlFormula" [k!"MlFormula", k!"Paginateable", k!"DocumentViewSelectable", k!"ARObject"]
    .nil)
   -- M2/AUTOSARTemplates/GenericStructure/GeneralTemplateClasses/PrimitiveTypes.py:642
   k!"NameToken" [k!"NameToken", k!"ARLiteral", k!"ARType"]
   (.node .nil
    -- M2/AUTOSARTemplates/SystemTemplate/NetworkManagement.py:1024
    k!"NmCluster" [k!"NmCluster", k!"Identifiable", k!"MultilanguageReferrable", k!"Referrable", k!"ARObject"]
    .nil)))
 -- M2/AUTOSARTemplates/GenericStructure/GeneralTemplateClasses/PrimitiveTypes.py:1439
 k!"Numerical" [k!"Numerical", k!"ARLiteral", k!"ARType"]
 (.node (.node (.node .nil
    -- M2/AUTOSARTemplates/SWComponentTemplate/Components/__init__.py:479
    k!"PortGroup" [k!"PortGroup", k!"AtpStructureElement", k!"AtpBlueprintable", k!"PackageableElement", k!"Identifiable", k!"MultilanguageReferrable", k!"Referrable", k!"ARObject"]
    .nil)
   -- M2/AUTOSARTemplates/CommonStructure/Timing/TimingConstraint/TimingExtensions.py:69
   k!"SwcTiming" [k!"SwcTiming", k!"TimingExtension", k!"ARElement", k!"PackageableElement", k!"Identifiable", k!"MultilanguageReferrable", k!"Referrable", k!"ARObject"]
   (.node .nil
    -- M2/AUTOSARTemplates/GenericStructure/GeneralTemplateClasses/PrimitiveTypes.py:239
    k!"TimeValue" [k!"TimeValue", k!"ARFloat", k!"ARNumerical", k!"ARType"]
    .nil))
  -- M2/AUTOSARTemplates/SystemTemplate/TransportProtocols.py:668
  k!"TpAddress" [k!"TpAddress", k!"Identifiable", k!"MultilanguageReferrable", k!"Referrable", k!"ARObject"]
  (.node (.node .nil
    -- M2/AUTOSARTemplates/CommonStructure/Timing/Traceable.py:7
    k!"Traceable" [k!"Traceable", k!"Identifiable", k!"MultilanguageReferrable", k!"Referrable", k!"ARObject"]
    .nil)
   -- M2/AUTOSARTemplates/SystemTemplate/NetworkManagement.py:684
   k!"UdpNmNode" [k!"UdpNmNode", k!"NmNode", k!"Identifiable", k!"MultilanguageReferrable", k!"Referrable", k!"ARObject"]
   (.node .nil
    -- M2/MSR/AsamHdo/Units.py:270
    k!"UnitGroup" [k!"UnitGroup", k!"ARElement", k!"PackageableElement", k!"Identifiable", k!"MultilanguageReferrable", k!"Referrable", k!"ARObject"]
    .nil))))

-- M2/AUTOSARTemplates/EcuResourceTemplate/__init__.py:531
def classTable09 : Bst (List Key) :=
 .node classTable07 k!"HwElement" [k!"HwElement", k!"HwDescriptionEntity", k!"Referrable", k!"ARObject"] classTable08

def classTable10 : Bst (List Key) :=
 (.node (.node (.node (.node (.node .nil
     -- M2/AUTOSARTemplates/SWComponentTemplate/SwcInternalBehavior/RTEEvents.py:557
     k!"WaitPoint" [k!"WaitPoint", k!"Identifiable", k!"MultilanguageReferrable", k!"Referrable", k!"ARObject"]
     .nil)
    -- M2/AUTOSARTemplates/AutosarTopLevelStructure/__init__.py:386
    k!"AUTOSARDoc" [k!"AUTOSARDoc", k!"AbstractAUTOSAR", k!"CollectableElement", k!"ARObject"]
    .nil)
   -- M2/MSR/Documentation/Annotation.py:53
   k!"Annotation" [k!"Annotation", k!"GeneralAnnotation", k!"ARObject"]
   (.node .nil
    -- M2/AUTOSARTemplates/GenericStructure/AbstractStructure.py:157
    k!"AtpFeature" [k!"AtpFeature", k!"Identifiable", k!"MultilanguageReferrable", k!"Referrable", k!"ARObject"]
    .nil))
  -- M2/AUTOSARTemplates/SystemTemplate/Fibex/FibexCore/CoreTopology.py:686
  k!"CanCluster" [k!"CanCluster", k!"AbstractCanCluster", k!"CommunicationCluster", k!"FibexElement", k!"PackageableElement", k!"Identifiable", k!"MultilanguageReferrable", k!"Referrable", k!"ARObject"]
  (.node (.node .nil
    -- M2/AUTOSARTemplates/GenericStructure/GeneralTemplateClasses/ElementCollection.py:14
    k!"Collection" [k!"Collection", k!"ARElement", k!"PackageableElement", k!"Identifiable", k!"MultilanguageReferrable", k!"Referrable", k!"ARObject"]
    .nil)
   -- M2/MSR/AsamHdo/ComputationMethod.py:28
   k!"CompuConst" [k!"CompuConst", k!"ARObject"]
   (.node .nil
    -- M2/MSR/AsamHdo/ComputationMethod.py:301
    k!"CompuScale" [k!"CompuScale", k!"ARObject"]
    .nil)))
 -- M2/MSR/AsamHdo/Constraints/GlobalConstraints.py:459
 k!"DataConstr" [k!"DataConstr", k!"AtpBlueprintable", k!"PackageableElement", k!"Identifiable", k!"MultilanguageReferrable", k!"Referrable", k!"ARObject"]
 (.node (.node (.node .nil
    -- M2/AUTOSARTemplates/CommonStructure/Filter.py:52
    k!"DataFilter" [k!"DataFilter", k!"ARObject"]
    .nil)
   -- M2/AUTOSARTemplates/SystemTemplate/Fibex/Fibex4Ethernet/NetworkEndpoint.py:228
   k!"DoIpEntity" [k!"DoIpEntity", k!"ARObject"]
   (.node .nil
    -- M2/AUTOSARTemplates/SystemTemplate/ECUResourceMapping.py:4
    k!"ECUMapping" [k!"ECUMapping", k!"Identifiable", k!"MultilanguageReferrable", k!"Referrable", k!"ARObject"]
    .nil))
  -- M2/AUTOSARTemplates/EcuResourceTemplate/HwElementCategory.py:121
  k!"HwCategory" [k!"HwCategory", k!"PackageableElement", k!"AtpDefinition", k!"Identifiable", k!"MultilanguageReferrable", k!"Referrable", k!"ARObject"]
  (.node (.node .nil
    -- M2/AUTOSARTemplates/EcuResourceTemplate/__init__.py:264
    k!"HwPinGroup" [k!"HwPinGroup", k!"HwDescriptionEntity", k!"Referrable", k!"ARObject"]
    .nil)
   -- M2/AUTOSARTemplates/SystemTemplate/Fibex/FibexCore/CoreCommunication.py:1070
   k!"IPduTiming" [k!"IPduTiming", k!"Describable", k!"ARObject"]
   (.node .nil
    -- M2/AUTOSARTemplates/GenericStructure/GeneralTemplateClasses/PrimitiveTypes.py:754
    k!"Identifier" [k!"Identifier", k!"ARLiteral", k!"ARType"]
    .nil))))

def classTable11 : Bst (List Key) :=
 (.node (.node (.node (.node .nil
    -- M2/AUTOSARTemplates/SystemTemplate/NetworkManagement.py:763
    k!"J1939NmEcu" [k!"J1939NmEcu", k!"BusspecificNmEcu", k!"ARObject"]
    .nil)
   -- M2/AUTOSARTemplates/CommonStructure/StandardizationTemplate/Keyword.py:91
   k!"KeywordSet" [k!"KeywordSet", k!"AtpBlueprintable", k!"PackageableElement", k!"Identifiable", k!"MultilanguageReferrable", k!"Referrable", k!"ARObject"]
   (.node .nil
    -- M2/MSR/Documentation/TextModel/LanguageDataModel.py:207
    k!"LParagraph" [k!"LParagraph", k!"LanguageSpecific", k!"ARObject"]
    .nil))
  -- M2/MSR/Documentation/TextModel/LanguageDataModel.py:366
  k!"LPlainText" [k!"LPlainText", k!"LanguageSpecific", k!"ARObject"]
  (.node (.node .nil
    -- M2/AUTOSARTemplates/SystemTemplate/Fibex/FibexCore/CoreTopology.py:699
    k!"LinCluster" [k!"LinCluster", k!"CommunicationCluster", k!"FibexElement", k!"PackageableElement", k!"Identifiable", k!"MultilanguageReferrable", k!"Referrable", k!"ARObject"]
    .nil)
   -- M2/AUTOSARTemplates/CommonStructure/MeasurementCalibrationSupport/__init__.py:711
   k!"McFunction" [k!"McFunction", k!"Identifiable", k!"MultilanguageReferrable", k!"Referrable", k!"ARObject"]
   (.node .nil
    -- M2/MSR/Documentation/TextModel/MsrQuery.py:232
    k!"MsrQueryP1" [k!"MsrQueryP1", k!"ARObject"]
    .nil)))
 -- M2/MSR/Documentation/TextModel/MsrQuery.py:167
 k!"MsrQueryP2" [k!"MsrQueryP2", k!"ARObject"]
 (.node (.node (.node .nil
    -- M2/MSR/Documentation/BlockElements/OasisExchangeTable.py:33
    k!"PgwideEnum" [k!"PgwideEnum", k!"AREnum", k!"ARLiteral", k!"ARType"]
    .nil)
   -- M2/AUTOSARTemplates/GenericStructure/GeneralTemplateClasses/Identifiable.py:21
   k!"Referrable" [k!"Referrable", k!"ARObject"]
   (.node .nil
    -- M2/MSR/AsamHdo/SpecialData.py:81
    k!"SdgCaption" [k!"SdgCaption", k!"MultilanguageReferrable", k!"Referrable", k!"ARObject"]
    .nil))
  -- M2/AUTOSARTemplates/SystemTemplate/Fibex/Fibex4Ethernet/ServiceInstances.py:1362
  k!"SoAdConfig" [k!"SoAdConfig", k!"ARObject"]
  (.node (.node .nil
    -- M2/AUTOSARTemplates/CommonStructure/ResourceConsumption/StackUsage.py:18
    k!"StackUsage" [k!"StackUsage", k!"Identifiable", k!"MultilanguageReferrable", k!"Referrable", k!"ARObject"]
    .nil)
   -- M2/AUTOSARTemplates/SystemTemplate/Fibex/FibexCore/CoreCommunication.py:1805
   k!"StaticPart" [k!"StaticPart", k!"MultiplexedPart", k!"ARObject"]
   (.node .nil
    -- M2/MSR/AsamHdo/BaseTypes.py:190
    k!"SwBaseType" [k!"SwBaseType", k!"BaseType", k!"ARElement", k!"PackageableElement", k!"Identifiable", k!"MultilanguageReferrable", k!"Referrable", k!"ARObject"]
    .nil))))

-- M2/MSR/Documentation/TextModel/InlineTextElements.py:114
def classTable12 : Bst (List Key) :=
 .node classTable10 k!"IndexEntry" [k!"IndexEntry", k!"ARObject"] classTable11

-- M2/MSR/DataDictionary/DataDefProperties.py:1072
def classTable13 : Bst (List Key) :=
 .node classTable09 k!"ValueList" [k!"ValueList", k!"ARObject"] classTable12

-- M2/AUTOSARTemplates/SWComponentTemplate/SwcInternalBehavior/RTEEvents.py:18
def classTable14 : Bst (List Key) :=
 .node classTable06 k!"RTEEvent" [k!"RTEEvent", k!"AtpStructureElement", k!"AtpBlueprintable", k!"PackageableElement", k!"AbstractEvent", k!"Identifiable", k!"MultilanguageReferrable", k!"Referrable", k!"ARObject"] classTable13

def classTable15 : Bst (List Key) :=
 (.node (.node (.node (.node (.node .nil
     -- M2/AUTOSARTemplates/GenericStructure/GeneralTemplateClasses/PrimitiveTypes.py:74
     k!"ARNumerical" [k!"ARNumerical", k!"ARType"]
     .nil)
    -- M2/AUTOSARTemplates/SWComponentTemplate/SwcInternalBehavior/AccessCount.py:88
    k!"AccessCount" [k!"AccessCount", k!"ARObject"]
    .nil)
   -- M2/AUTOSARTemplates/BswModuleTemplate/BswInterfaces.py:39
   k!"BswCallType" [k!"BswCallType", k!"AREnum", k!"ARLiteral", k!"ARType"]
   (.node .nil
    -- M2/AUTOSARTemplates/CommonStructure/ServiceNeeds.py:2089
    k!"BswMgrNeeds" [k!"BswMgrNeeds", k!"ServiceNeeds", k!"Identifiable", k!"MultilanguageReferrable", k!"Referrable", k!"ARObject"]
    .nil))
  -- M2/AUTOSARTemplates/GenericStructure/GeneralTemplateClasses/PrimitiveTypes.py:823
  k!"CIdentifier" [k!"CIdentifier", k!"ARLiteral", k!"ARType"]
  (.node (.node .nil
    -- M2/AUTOSARTemplates/SystemTemplate/TransportProtocols.py:468
    k!"CanTpConfig" [k!"CanTpConfig", k!"TpConfig", k!"FibexElement", k!"PackageableElement", k!"Identifiable", k!"MultilanguageReferrable", k!"Referrable", k!"ARObject"]
    .nil)
   -- M2/MSR/AsamHdo/ComputationMethod.py:429
   k!"CompuMethod" [k!"CompuMethod", k!"AtpBlueprintable", k!"PackageableElement", k!"Identifiable", k!"MultilanguageReferrable", k!"Referrable", k!"ARObject"]
   (.node .nil
    -- M2/MSR/AsamHdo/ComputationMethod.py:406
    k!"CompuScales" [k!"CompuScales", k!"CompuContent", k!"ARObject"]
    .nil)))
 -- M2/AUTOSARTemplates/GenericStructure/GeneralTemplateClasses/PrimitiveTypes.py:422
 k!"CseCodeType" [k!"CseCodeType", k!"ARLiteral", k!"ARType"]
 (.node (.node (.node .nil
    -- M2/AUTOSARTemplates/SystemTemplate/DataMapping.py:14
    k!"DataMapping" [k!"DataMapping", k!"ARObject"]
    .nil)
   -- M2/AUTOSARTemplates/SWComponentTemplate/Datatype/Datatypes.py:220
   k!"DataTypeMap" [k!"DataTypeMap", k!"ARObject"]
   (.node .nil
    -- M2/AUTOSARTemplates/GenericStructure/GeneralTemplateClasses/Identifiable.py:654
    k!"Describable" [k!"Describable", k!"ARObject"]
    .nil))
  -- M2/MSR/AsamHdo/AdminData.py:45
  k!"DocRevision" [k!"DocRevision", k!"ARObject"]
  (.node (.node .nil
    -- M2/AUTOSARTemplates/CommonStructure/ServiceNeeds.py:1459
    k!"DtcKindEnum" [k!"DtcKindEnum", k!"AREnum", k!"ARLiteral", k!"ARType"]
    .nil)
   -- M2/AUTOSARTemplates/SystemTemplate/Fibex/FibexCore/CoreCommunication.py:1879
   k!"DynamicPart" [k!"DynamicPart", k!"MultiplexedPart", k!"ARObject"]
   (.node .nil
    -- M2/AUTOSARTemplates/CommonStructure/Timing/TimingConstraint/ExecutionOrderConstraint.py:116
    k!"EOCEventRef" [k!"EOCEventRef", k!"ARObject"]
    .nil))))

def classTable16 : Bst (List Key) :=
 (.node (.node (.node (.node (.node .nil
     -- M2/AUTOSARTemplates/SystemTemplate/Fibex/Fibex4Multiplatform.py:193
     k!"IPduMapping" [k!"IPduMapping", k!"ARObject"]
     .nil)
    -- M2/AUTOSARTemplates/SystemTemplate/Fibex/FibexCore/CoreCommunication.py:1125
    k!"ISignalIPdu" [k!"ISignalIPdu", k!"IPdu", k!"Pdu", k!"FibexElement", k!"PackageableElement", k!"Identifiable", k!"MultilanguageReferrable", k!"Referrable", k!"ARObject"]
    .nil)
   -- M2/AUTOSARTemplates/SystemTemplate/Fibex/FibexCore/CoreTopology.py:908
   k!"ISignalPort" [k!"ISignalPort", k!"CommConnectorPort", k!"Identifiable", k!"MultilanguageReferrable", k!"Referrable", k!"ARObject"]
   (.node .nil
    -- M2/AUTOSARTemplates/CommonStructure/ServiceNeeds.py:3302
    k!"IdsMgrNeeds" [k!"IdsMgrNeeds", k!"ServiceNeeds", k!"Identifiable", k!"MultilanguageReferrable", k!"Referrable", k!"ARObject"]
    .nil))
  -- M2/AUTOSARTemplates/SystemTemplate/NetworkManagement.py:629
  k!"J1939NmNode" [k!"J1939NmNode", k!"NmNode", k!"Identifiable", k!"MultilanguageReferrable", k!"Referrable", k!"ARObject"]
  (.node (.node .nil
    -- M2/MSR/Documentation/TextModel/BlockElements/ListElements.py:183
    k!"LabeledItem" [k!"LabeledItem", k!"ARObject"]
    .nil)
   -- M2/MSR/Documentation/TextModel/BlockElements/ListElements.py:273
   k!"LabeledList" [k!"LabeledList", k!"ARObject"]
   (.node .nil
    -- M2/AUTOSARTemplates/SystemTemplate/TransportProtocols.py:888
    k!"LinTpConfig" [k!"LinTpConfig", k!"TpConfig", k!"FibexElement", k!"PackageableElement", k!"Identifiable", k!"MultilanguageReferrable", k!"Referrable", k!"ARObject"]
    .nil)))
 -- M2/MSR/Documentation/TextModel/MsrQuery.py:12
 k!"MsrQueryArg" [k!"MsrQueryArg", k!"ARObject"]
 (.node (.node (.node .nil
    -- M2/MSR/AsamHdo/Constraints/GlobalConstraints.py:294
    k!"PhysConstrs" [k!"PhysConstrs", k!"ARObject"]
    .nil)
   -- M2/MSR/AsamHdo/Constraints/GlobalConstraints.py:184
   k!"ScaleConstr" [k!"ScaleConstr", k!"ARObject"]
   (.node .nil
    -- M2/MSR/AsamHdo/SpecialData.py:168
    k!"SdgContents" [k!"SdgContents", k!"ARObject"]
    .nil))
  -- M2/AUTOSARTemplates/SystemTemplate/Fibex/FibexCore/CoreCommunication.py:709
  k!"SecuredIPdu" [k!"SecuredIPdu", k!"IPdu", k!"Pdu", k!"FibexElement", k!"PackageableElement", k!"Identifiable", k!"MultilanguageReferrable", k!"Referrable", k!"ARObject"]
  (.node (.node .nil
    -- M2/MSR/Documentation/TextModel/InlineTextElements.py:9
    k!"Superscript" [k!"Superscript", k!"ARLiteral", k!"ARType"]
    .nil)
   -- M2/AUTOSARTemplates/SWComponentTemplate/Composition/__init__.py:38
   k!"SwConnector" [k!"SwConnector", k!"AtpStructureElement", k!"AtpBlueprintable", k!"PackageableElement", k!"Identifiable", k!"MultilanguageReferrable", k!"Referrable", k!"ARObject"]
   (.node .nil
    -- M2/MSR/DataDictionary/DataDefProperties.py:1105
    k!"SwTextProps" [k!"SwTextProps", k!"ARObject"]
    .nil))))

-- M2/AUTOSARTemplates/SystemTemplate/Fibex/FibexCore/EcuInstance.py:11
def classTable17 : Bst (List Key) :=
 .node classTable15 k!"EcuInstance" [k!"EcuInstance", k!"FibexElement", k!"PackageableElement", k!"Identifiable", k!"MultilanguageReferrable", k!"Referrable", k!"ARObject"] classTable16

def classTable18 : Bst (List Key) :=
 (.node (.node (.node (.node (.node .nil
     -- M2/AUTOSARTemplates/SWComponentTemplate/Components/__init__.py:41
     k!"SymbolProps" [k!"SymbolProps", k!"ImplementationProps", k!"Referrable", k!"ARObject"]
     .nil)
    -- M2/AUTOSARTemplates/CommonStructure/Timing/TimingClock/TimingClock.py:4
    k!"TimingClock" [k!"TimingClock", k!"ARObject"]
    .nil)
   -- M2/AUTOSARTemplates/SWComponentTemplate/SwcInternalBehavior/RTEEvents.py:386
   k!"TimingEvent" [k!"TimingEvent", k!"RTEEvent", k!"AtpStructureElement", k!"AtpBlueprintable", k!"PackageableElement", k!"AbstractEvent", k!"Identifiable", k!"MultilanguageReferrable", k!"Referrable", k!"ARObject"]
   (.node .nil
    -- M2/AUTOSARTemplates/CommonStructure/FlatMap.py:354
    k!"AliasNameSet" [k!"AliasNameSet", k!"ARElement", k!"PackageableElement", k!"Identifiable", k!"MultilanguageReferrable", k!"Referrable", k!"ARObject"]
    .nil))
  -- M2/AUTOSARTemplates/CommonStructure/StandardizationTemplate/AbstractBlueprintStructure/AtpBlueprint.py:13
  k!"AtpBlueprint" [k!"AtpBlueprint", k!"Identifiable", k!"MultilanguageReferrable", k!"Referrable", k!"ARObject"]
  (.node (.node .nil
    -- M2/AUTOSARTemplates/GenericStructure/AbstractStructure.py:218
    k!"AtpPrototype" [k!"AtpPrototype", k!"AtpBlueprintable", k!"PackageableElement", k!"Identifiable", k!"MultilanguageReferrable", k!"Referrable", k!"ARObject"]
    .nil)
   -- M2/AUTOSARTemplates/SystemTemplate/NetworkManagement.py:1163
   k!"CanNmCluster" [k!"CanNmCluster", k!"NmCluster", k!"Identifiable", k!"MultilanguageReferrable", k!"Referrable", k!"ARObject"]
   (.node .nil
    -- M2/AUTOSARTemplates/SystemTemplate/TransportProtocols.py:43
    k!"CanTpAddress" [k!"CanTpAddress", k!"Identifiable", k!"MultilanguageReferrable", k!"Referrable", k!"ARObject"]
    .nil)))
 -- M2/AUTOSARTemplates/SystemTemplate/TransportProtocols.py:80
 k!"CanTpChannel" [k!"CanTpChannel", k!"Identifiable", k!"MultilanguageReferrable", k!"Referrable", k!"ARObject"]
 (.node (.node (.node .nil
    -- M2/MSR/Documentation/Chapters.py:134
    k!"ChapterModel" [k!"ChapterModel", k!"ARObject"]
    .nil)
   -- M2/MSR/AsamHdo/ComputationMethod.py:12
   k!"CompuContent" [k!"CompuContent", k!"ARObject"]
   (.node .nil
    -- M2/AUTOSARTemplates/SystemTemplate/Fibex/Fibex4Ethernet/EthernetTopology.py:431
    k!"CouplingPort" [k!"CouplingPort", k!"Identifiable", k!"MultilanguageReferrable", k!"Referrable", k!"ARObject"]
    .nil))
  -- M2/AUTOSARTemplates/SystemTemplate/Fibex/FibexCore/CoreTopology.py:33
  k!"CycleCounter" [k!"CycleCounter", k!"CommunicationCycle", k!"ARObject"]
  (.node (.node .nil
    -- M2/AUTOSARTemplates/SystemTemplate/Fibex/FibexCore/Timing.py:101
    k!"CyclicTiming" [k!"CyclicTiming", k!"Describable", k!"ARObject"]
    .nil)
   -- M2/AUTOSARTemplates/CommonStructure/ServiceNeeds.py:2069
   k!"DltUserNeeds" [k!"DltUserNeeds", k!"ServiceNeeds", k!"Identifiable", k!"MultilanguageReferrable", k!"Referrable", k!"ARObject"]
   (.node .nil
    -- M2/AUTOSARTemplates/CommonStructure/ServiceNeeds.py:2766
    k!"DoIpGidNeeds" [k!"DoIpGidNeeds", k!"ServiceNeeds", k!"Identifiable", k!"MultilanguageReferrable", k!"Referrable", k!"ARObject"]
    .nil))))

def classTable19 : Bst (List Key) :=
 (.node (.node (.node (.node .nil
    -- M2/MSR/Documentation/TextModel/InlineTextElements.py:204
    k!"EmphasisText" [k!"EmphasisText", k!"ARObject"]
    .nil)
   -- M2/AUTOSARTemplates/SystemTemplate/Fibex/Fibex4Ethernet/ServiceInstances.py:736
   k!"EventHandler" [k!"EventHandler", k!"Identifiable", k!"MultilanguageReferrable", k!"Referrable", k!"ARObject"]
   (.node .nil
    -- M2/AUTOSARTemplates/SystemTemplate/Fibex/FibexCore/CoreCommunication.py:20
    k!"FibexElement" [k!"FibexElement", k!"PackageableElement", k!"Identifiable", k!"MultilanguageReferrable", k!"Referrable", k!"ARObject"]
    .nil))
  -- M2/AUTOSARTemplates/AdaptivePlatform/PlatformModuleDeployment/Firewall/FirewallRule.py:6
  k!"FirewallRule" [k!"FirewallRule", k!"ARObject"]
  (.node (.node .nil
    -- M2/AUTOSARTemplates/SystemTemplate/Fibex/Fibex4Flexray/FlexrayCommunication.py:8
    k!"FlexrayFrame" [k!"FlexrayFrame", k!"Frame", k!"FibexElement", k!"PackageableElement", k!"Identifiable", k!"MultilanguageReferrable", k!"Referrable", k!"ARObject"]
    .nil)
   -- M2/AUTOSARTemplates/SystemTemplate/NetworkManagement.py:750
   k!"FlexrayNmEcu" [k!"FlexrayNmEcu", k!"BusspecificNmEcu", k!"ARObject"]
   (.node .nil
    -- M2/AUTOSARTemplates/SystemTemplate/Fibex/Fibex4Multiplatform.py:10
    k!"FrameMapping" [k!"FrameMapping", k!"ARObject"]
    .nil)))
 -- M2/AUTOSARTemplates/SystemTemplate/Fibex/FibexCore/CoreCommunication.py:219
 k!"ISignalGroup" [k!"ISignalGroup", k!"FibexElement", k!"PackageableElement", k!"Identifiable", k!"MultilanguageReferrable", k!"Referrable", k!"ARObject"]
 (.node (.node (.node .nil
    -- M2/AUTOSARTemplates/SystemTemplate/Fibex/FibexCore/CoreCommunication.py:1226
    k!"ISignalProps" [k!"ISignalProps", k!"ARObject"]
    .nil)
   -- M2/AUTOSARTemplates/SWComponentTemplate/RPTScenario.py:14
   k!"IdentCaption" [k!"IdentCaption", k!"AtpStructureElement", k!"AtpBlueprintable", k!"PackageableElement", k!"Identifiable", k!"MultilanguageReferrable", k!"Referrable", k!"ARObject"]
   (.node .nil
    -- M2/AUTOSARTemplates/GenericStructure/GeneralTemplateClasses/Identifiable.py:345
    k!"Identifiable" [k!"Identifiable", k!"MultilanguageReferrable", k!"Referrable", k!"ARObject"]
    .nil))
  -- M2/MSR/Documentation/TextModel/BlockElements/ListElements.py:118
  k!"IndentSample" [k!"IndentSample", k!"ARObject"]
  (.node (.node .nil
    -- M2/AUTOSARTemplates/SWComponentTemplate/PortInterface/__init__.py:234
    k!"MetaDataItem" [k!"MetaDataItem", k!"ARObject"]
    .nil)
   -- M2/MSR/AsamHdo/AdminData.py:8
   k!"Modification" [k!"Modification", k!"ARObject"]
   (.node .nil
    -- M2/AUTOSARTemplates/GenericStructure/GeneralTemplateClasses/PrimitiveTypes.py:1279
    k!"MonotonyEnum" [k!"MonotonyEnum", k!"AREnum", k!"ARLiteral", k!"ARType"]
    .nil))))

-- M2/AUTOSARTemplates/SystemTemplate/TransportProtocols.py:629
def classTable20 : Bst (List Key) :=
 .node classTable18 k!"DoIpTpConfig" [k!"DoIpTpConfig", k!"TpConfig", k!"FibexElement", k!"PackageableElement", k!"Identifiable", k!"MultilanguageReferrable", k!"Referrable", k!"ARObject"] classTable19

-- M2/MSR/CalibrationData/CalibrationValue.py:30
def classTable21 : Bst (List Key) :=
 .node classTable17 k!"SwValueCont" [k!"SwValueCont", k!"ARObject"] classTable20

def classTable22 : Bst (List Key) :=
 (.node (.node (.node (.node (.node .nil
     -- M2/AUTOSARTemplates/CommonStructure/ServiceNeeds.py:255
     k!"NvBlockNeeds" [k!"NvBlockNeeds", k!"ServiceNeeds", k!"Identifiable", k!"MultilanguageReferrable", k!"Referrable", k!"ARObject"]
     .nil)
    -- M2/AUTOSARTemplates/SWComponentTemplate/Communication.py:41
    k!"PPortComSpec" [k!"PPortComSpec", k!"ARObject"]
    .nil)
   -- M2/MSR/Documentation/TextModel/BlockElements/PaginationAndView.py:20
   k!"Paginateable" [k!"Paginateable", k!"DocumentViewSelectable", k!"ARObject"]
   (.node .nil
    -- M2/AUTOSARTemplates/SWComponentTemplate/Communication.py:58
    k!"RPortComSpec" [k!"RPortComSpec", k!"ARObject"]
    .nil))
  -- M2/AUTOSARTemplates/CommonStructure/MeasurementCalibrationSupport/RptSupport/__init__.py:781
  k!"RptComponent" [k!"RptComponent", k!"Identifiable", k!"MultilanguageReferrable", k!"Referrable", k!"ARObject"]
  (.node (.node .nil
    -- M2/AUTOSARTemplates/CommonStructure/ServiceNeeds.py:3925
    k!"RuntimeError" [k!"RuntimeError", k!"TracedFailure", k!"Identifiable", k!"MultilanguageReferrable", k!"Referrable", k!"ARObject"]
    .nil)
   -- M2/AUTOSARTemplates/CommonStructure/ServiceNeeds.py:147
   k!"ServiceNeeds" [k!"ServiceNeeds", k!"Identifiable", k!"MultilanguageReferrable", k!"Referrable", k!"ARObject"]
   (.node .nil
    -- M2/MSR/DataDictionary/AuxillaryObjects.py:80
    k!"SwAddrMethod" [k!"SwAddrMethod", k!"AtpBlueprintable", k!"PackageableElement", k!"Identifiable", k!"MultilanguageReferrable", k!"Referrable", k!"ARObject"]
    .nil)))
 -- M2/MSR/DataDictionary/CalibrationParameter.py:98
 k!"SwCalprmAxis" [k!"SwCalprmAxis", k!"ARObject"]
 (.node (.node (.node .nil
    -- M2/MSR/DataDictionary/ServiceProcessTask.py:9
    k!"SwServiceArg" [k!"SwServiceArg", k!"Identifiable", k!"MultilanguageReferrable", k!"Referrable", k!"ARObject"]
    .nil)
   -- M2/AUTOSARTemplates/GenericStructure/GeneralTemplateClasses/PrimitiveTypes.py:1403
   k!"SymbolString" [k!"SymbolString", k!"ARLiteral", k!"ARType"]
   (.node .nil
    -- M2/AUTOSARTemplates/SystemTemplate/Fibex/FibexCore/CoreCommunication.py:1595
    k!"SystemSignal" [k!"SystemSignal", k!"ARElement", k!"PackageableElement", k!"Identifiable", k!"MultilanguageReferrable", k!"Referrable", k!"ARObject"]
    .nil))
  -- M2/AUTOSARTemplates/SystemTemplate/Fibex/Fibex4Ethernet/ServiceInstances.py:66
  k!"TcpUdpConfig" [k!"TcpUdpConfig", k!"TransportProtocolConfiguration", k!"ARObject"]
  (.node (.node .nil
    -- M2/MSR/Documentation/Chapters.py:587
    k!"TopicContent" [k!"TopicContent", k!"ARObject"]
    .nil)
   -- M2/AUTOSARTemplates/SystemTemplate/TransportProtocols.py:130
   k!"TpConnection" [k!"TpConnection", k!"ARObject"]
   (.node .nil
    -- M2/AUTOSARTemplates/SystemTemplate/NetworkManagement.py:1403
    k!"UdpNmCluster" [k!"UdpNmCluster", k!"NmCluster", k!"Identifiable", k!"MultilanguageReferrable", k!"Referrable", k!"ARObject"]
    .nil))))

def classTable23 : Bst (List Key) :=
 (.node (.node (.node (.node .nil
    -- M2/AUTOSARTemplates/CommonStructure/InternalBehavior.py:492
    k!"AbstractEvent" [k!"AbstractEvent", k!"Identifiable", k!"MultilanguageReferrable", k!"Referrable", k!"ARObject"]
    .nil)
   -- M2/AUTOSARTemplates/CommonStructure/Timing/TimingConstraint/AgeConstraint.py:17
   k!"AgeConstraint" [k!"AgeConstraint", k!"TimingConstraint", k!"Traceable", k!"Identifiable", k!"MultilanguageReferrable", k!"Referrable", k!"ARObject"]
   (.node .nil
    -- M2/AUTOSARTemplates/GenericStructure/GeneralTemplateClasses/PrimitiveTypes.py:371
    k!"AlignmentType" [k!"AlignmentType", k!"ARLiteral", k!"ARType"]
    .nil))
  -- M2/AUTOSARTemplates/GenericStructure/AbstractStructure.py:131
  k!"AtpClassifier" [k!"AtpClassifier", k!"PackageableElement", k!"Identifiable", k!"MultilanguageReferrable", k!"Referrable", k!"ARObject"]
  (.node (.node .nil
    -- M2/AUTOSARTemplates/GenericStructure/RolesAndRights/AtpDefinition.py:10
    k!"AtpDefinition" [k!"AtpDefinition", k!"Identifiable", k!"MultilanguageReferrable", k!"Referrable", k!"ARObject"]
    .nil)
   -- M2/MSR/DataDictionary/RecordLayout.py:7
   k!"AxisIndexType" [k!"AxisIndexType", k!"ARLiteral", k!"ARType"]
   (.node .nil
    -- M2/AUTOSARTemplates/BswModuleTemplate/BswBehavior/__init__.py:1797
    k!"BswApiOptions" [k!"BswApiOptions", k!"ARObject"]
    .nil)))
 -- M2/AUTOSARTemplates/GenericStructure/GeneralTemplateClasses/PrimitiveTypes.py:1250
 k!"ByteOrderEnum" [k!"ByteOrderEnum", k!"AREnum", k!"ARLiteral", k!"ARType"]
 (.node (.node (.node .nil
    -- M2/AUTOSARTemplates/SWComponentTemplate/Communication.py:605
    k!"ClientComSpec" [k!"ClientComSpec", k!"RPortComSpec", k!"ARObject"]
    .nil)
   -- M2/AUTOSARTemplates/AdaptivePlatform/PlatformModuleDeployment/CryptoDeployment/CryptoKeySlot.py:22
   k!"CryptoKeySlot" [k!"CryptoKeySlot", k!"Identifiable", k!"MultilanguageReferrable", k!"Referrable", k!"ARObject"]
   (.node .nil
    -- M2/AUTOSARTemplates/SWComponentTemplate/PortInterface/__init__.py:123
    k!"DataInterface" [k!"DataInterface", k!"PortInterface", k!"AtpType", k!"AtpClassifier", k!"PackageableElement", k!"Identifiable", k!"MultilanguageReferrable", k!"Referrable", k!"ARObject"]
    .nil))
  -- M2/AUTOSARTemplates/SWComponentTemplate/Datatype/DataPrototypes.py:25
  k!"DataPrototype" [k!"DataPrototype", k!"AtpPrototype", k!"AtpBlueprintable", k!"PackageableElement", k!"Identifiable", k!"MultilanguageReferrable", k!"Referrable", k!"ARObject"]
  (.node (.node .nil
    -- M2/AUTOSARTemplates/GenericStructure/DocumentationOnM1/__init__.py:12
    k!"Documentation" [k!"Documentation", k!"ARElement", k!"PackageableElement", k!"Identifiable", k!"MultilanguageReferrable", k!"Referrable", k!"ARObject"]
    .nil)
   -- M2/AUTOSARTemplates/ECUCParameterDefTemplate.py:2349
   k!"EcucModuleDef" [k!"EcucModuleDef", k!"EcucDefinitionElement", k!"Identifiable", k!"MultilanguageReferrable", k!"Referrable", k!"ARObject"]
   (.node .nil
    -- M2/AUTOSARTemplates/ECUCParameterDefTemplate.py:169
    k!"EcucScopeEnum" [k!"EcucScopeEnum", k!"AREnum", k!"ARLiteral", k!"ARType"]
    .nil))))

-- M2/AUTOSARTemplates/GenericStructure/GeneralTemplateClasses/Enumerations.py:44
def classTable24 : Bst (List Key) :=
 .node classTable22 k!"XmlSpaceEnum" [k!"XmlSpaceEnum", k!"AREnum", k!"ARLiteral", k!"ARType"] classTable23

def classTable25 : Bst (List Key) :=
 (.node (.node (.node (.node (.node .nil
     -- M2/AUTOSARTemplates/CommonStructure/ResourceConsumption/ExecutionTime/__init__.py:19
     k!"ExecutionTime" [k!"ExecutionTime", k!"Identifiable", k!"MultilanguageReferrable", k!"Referrable", k!"ARObject"]
     .nil)
    -- M2/AUTOSARTemplates/SystemTemplate/NetworkManagement.py:383
    k!"FlexrayNmNode" [k!"FlexrayNmNode", k!"NmNode", k!"Identifiable", k!"MultilanguageReferrable", k!"Referrable", k!"ARObject"]
    .nil)
   -- M2/AUTOSARTemplates/SystemTemplate/NetworkManagement.py:434
   k!"J1939NodeName" [k!"J1939NodeName", k!"ARObject"]
   (.node .nil
    -- M2/AUTOSARTemplates/GenericStructure/LifeCycles.py:110
    k!"LifeCycleInfo" [k!"LifeCycleInfo", k!"ARObject"]
    .nil))
  -- M2/AUTOSARTemplates/CommonStructure/MeasurementCalibrationSupport/__init__.py:1382
  k!"McSupportData" [k!"McSupportData", k!"ARObject"]
  (.node (.node .nil
    -- M2/AUTOSARTemplates/GenericStructure/GeneralTemplateClasses/PrimitiveTypes.py:1419
    k!"McdIdentifier" [k!"McdIdentifier", k!"ARLiteral", k!"ARType"]
    .nil)
   -- M2/AUTOSARTemplates/CommonStructure/ResourceConsumption/MemorySectionUsage.py:13
   k!"MemorySection" [k!"MemorySection", k!"Identifiable", k!"MultilanguageReferrable", k!"Referrable", k!"ARObject"]
   (.node .nil
    -- M2/MSR/Documentation/TextModel/MsrQuery.py:77
    k!"MsrQueryProps" [k!"MsrQueryProps", k!"ARObject"]
    .nil)))
 -- M2/AUTOSARTemplates/SystemTemplate/Fibex/FibexCore/CoreCommunication.py:1481
 k!"PduTriggering" [k!"PduTriggering", k!"Identifiable", k!"MultilanguageReferrable", k!"Referrable", k!"ARObject"]
 (.node (.node (.node .nil
    -- M2/AUTOSARTemplates/SWComponentTemplate/SwcInternalBehavior/PortAPIOptions.py:75
    k!"PortAPIOption" [k!"PortAPIOption", k!"ARObject"]
    .nil)
   -- M2/AUTOSARTemplates/SWComponentTemplate/PortInterface/__init__.py:33
   k!"PortInterface" [k!"PortInterface", k!"AtpType", k!"AtpClassifier", k!"PackageableElement", k!"Identifiable", k!"MultilanguageReferrable", k!"Referrable", k!"ARObject"]
   (.node .nil
    -- M2/AUTOSARTemplates/SWComponentTemplate/Components/__init__.py:49
    k!"PortPrototype" [k!"PortPrototype", k!"AtpPrototype", k!"AtpBlueprintable", k!"PackageableElement", k!"Identifiable", k!"MultilanguageReferrable", k!"Referrable", k!"ARObject"]
    .nil))
  -- M2/AUTOSARTemplates/SWComponentTemplate/ApplicationAttributes/__init__.py:98
  k!"PulseTestEnum" [k!"PulseTestEnum", k!"AREnum", k!"ARLiteral", k!"ARType"]
  (.node (.node .nil
    -- M2/AUTOSARTemplates/GenericStructure/GeneralTemplateClasses/ARPackage.py:98
    k!"ReferenceBase" [k!"ReferenceBase", k!"ARObject"]
    .nil)
   -- M2/AUTOSARTemplates/CommonStructure/MeasurementCalibrationSupport/RptSupport/__init__.py:18
   k!"RptAccessEnum" [k!"RptAccessEnum", k!"AREnum", k!"ARLiteral", k!"ARType"]
   (.node .nil
    -- M2/AUTOSARTemplates/SWComponentTemplate/RPTScenario.py:67
    k!"RptImplPolicy" [k!"RptImplPolicy", k!"ARObject"]
    .nil))))

def classTable26 : Bst (List Key) :=
 (.node (.node (.node (.node .nil
    -- M2/AUTOSARTemplates/SWComponentTemplate/Communication.py:379
    k!"SenderComSpec" [k!"SenderComSpec", k!"PPortComSpec", k!"ARObject"]
    .nil)
   -- M2/AUTOSARTemplates/SWComponentTemplate/Communication.py:1405
   k!"ServerComSpec" [k!"ServerComSpec", k!"PPortComSpec", k!"ARObject"]
   (.node .nil
    -- M2/AUTOSARTemplates/SWComponentTemplate/ApplicationAttributes/__init__.py:123
    k!"SignalFanEnum" [k!"SignalFanEnum", k!"AREnum", k!"ARLiteral", k!"ARType"]
    .nil))
  -- M2/AUTOSARTemplates/SystemTemplate/Fibex/Fibex4Ethernet/ServiceInstances.py:1216
  k!"SocketAddress" [k!"SocketAddress", k!"Identifiable", k!"MultilanguageReferrable", k!"Referrable", k!"ARObject"]
  (.node (.node .nil
    -- M2/MSR/Documentation/TextModel/BlockElements/RequirementsTracing.py:77
    k!"StructuredReq" [k!"StructuredReq", k!"ARObject"]
    .nil)
   -- M2/MSR/DataDictionary/Axis.py:62
   k!"SwAxisGeneric" [k!"SwAxisGeneric", k!"ARObject"]
   (.node .nil
    -- M2/MSR/DataDictionary/Axis.py:211
    k!"SwAxisGrouped" [k!"SwAxisGrouped", k!"SwCalprmAxisTypeProps", k!"ARObject"]
    .nil)))
 -- M2/MSR/DataDictionary/SystemConstant.py:6
 k!"SwSystemconst" [k!"SwSystemconst", k!"Identifiable", k!"MultilanguageReferrable", k!"Referrable", k!"ARObject"]
 (.node (.node (.node .nil
    -- M2/AUTOSARTemplates/CommonStructure/SwcBswMapping.py:93
    k!"SwcBswMapping" [k!"SwcBswMapping", k!"AtpStructureElement", k!"AtpBlueprintable", k!"PackageableElement", k!"Identifiable", k!"MultilanguageReferrable", k!"Referrable", k!"ARObject"]
    .nil)
   -- M2/AUTOSARTemplates/SystemTemplate/__init__.py:126
   k!"SystemMapping" [k!"SystemMapping", k!"Identifiable", k!"MultilanguageReferrable", k!"Referrable", k!"ARObject"]
   (.node .nil
    -- M2/AUTOSARTemplates/SystemTemplate/Fibex/Fibex4Multiplatform.py:158
    k!"TargetIPduRef" [k!"TargetIPduRef", k!"ARObject"]
    .nil))
  -- M2/AUTOSARTemplates/SystemTemplate/Fibex/FibexCore/Timing.py:67
  k!"TimeRangeType" [k!"TimeRangeType", k!"ARObject"]
  (.node (.node .nil
    -- M2/MSR/Documentation/TextModel/BlockElements/RequirementsTracing.py:12
    k!"TraceableText" [k!"TraceableText", k!"ARObject"]
    .nil)
   -- M2/AUTOSARTemplates/CommonStructure/ServiceNeeds.py:2199
   k!"TracedFailure" [k!"TracedFailure", k!"Identifiable", k!"MultilanguageReferrable", k!"Referrable", k!"ARObject"]
   (.node .nil
    -- M2/AUTOSARTemplates/CommonStructure/ServiceNeeds.py:4550
    k!"V2xMUserNeeds" [k!"V2xMUserNeeds", k!"ServiceNeeds", k!"Identifiable", k!"MultilanguageReferrable", k!"Referrable", k!"ARObject"]
    .nil))))

-- M2/AUTOSARTemplates/CommonStructure/Constants/__init__.py:926
def classTable27 : Bst (List Key) :=
 .node classTable25 k!"RuleArguments" [k!"RuleArguments", k!"ARObject"] classTable26

-- M2/AUTOSARTemplates/CommonStructure/InternalBehavior.py:52
def classTable28 : Bst (List Key) :=
 .node classTable24 k!"ExclusiveArea" [k!"ExclusiveArea", k!"Identifiable", k!"MultilanguageReferrable", k!"Referrable", k!"ARObject"] classTable27

-- M2/MSR/Documentation/TextModel/BlockElements/Note.py:13
def classTable29 : Bst (List Key) :=
 .node classTable21 k!"NoteTypeEnum" [k!"NoteTypeEnum", k!"AREnum", k!"ARLiteral", k!"ARType"] classTable28

-- M2/AUTOSARTemplates/SystemTemplate/Fibex/FibexCore/CoreTopology.py:269
def classTable30 : Bst (List Key) :=
 .node classTable14 k!"VlanConfig" [k!"VlanConfig", k!"Identifiable", k!"MultilanguageReferrable", k!"Referrable", k!"ARObject"] classTable29

def classTable31 : Bst (List Key) :=
 (.node (.node (.node (.node (.node .nil
     -- M2/AUTOSARTemplates/GenericStructure/GeneralTemplateClasses/AnyInstanceRef.py:11
     k!"AnyInstanceRef" [k!"AnyInstanceRef", k!"AtpInstanceRef", k!"ARObject"]
     .nil)
    -- M2/AUTOSARTemplates/GenericStructure/AbstractStructure.py:13
    k!"AtpInstanceRef" [k!"AtpInstanceRef", k!"ARObject"]
    .nil)
   -- M2/AUTOSARTemplates/BswModuleTemplate/BswInterfaces.py:208
   k!"BswModuleEntry" [k!"BswModuleEntry", k!"AtpBlueprintable", k!"PackageableElement", k!"Identifiable", k!"MultilanguageReferrable", k!"Referrable", k!"ARObject"]
   (.node .nil
    -- M2/AUTOSARTemplates/BswModuleTemplate/BswBehavior/__init__.py:1274
    k!"BswTimingEvent" [k!"BswTimingEvent", k!"BswScheduleEvent", k!"BswEvent", k!"AbstractEvent", k!"Identifiable", k!"MultilanguageReferrable", k!"Referrable", k!"ARObject"]
    .nil))
  -- M2/AUTOSARTemplates/GenericStructure/GeneralTemplateClasses/PrimitiveTypes.py:1231
  k!"CategoryString" [k!"CategoryString", k!"ARLiteral", k!"ARType"]
  (.node (.node .nil
    -- M2/MSR/Documentation/Chapters.py:238
    k!"ChapterContent" [k!"ChapterContent", k!"ARObject"]
    .nil)
   -- M2/MSR/AsamHdo/Constraints/GlobalConstraints.py:442
   k!"DataConstrRule" [k!"DataConstrRule", k!"ARObject"]
   (.node .nil
    -- M2/AUTOSARTemplates/SystemTemplate/Transformer/__init__.py:195
    k!"DataIdModeEnum" [k!"DataIdModeEnum", k!"AREnum", k!"ARLiteral", k!"ARType"]
    .nil)))
 -- M2/AUTOSARTemplates/SystemTemplate/Fibex/Fibex4Flexray/FlexrayTopology.py:582
 k!"FlexrayCluster" [k!"FlexrayCluster", k!"CommunicationCluster", k!"FibexElement", k!"PackageableElement", k!"Identifiable", k!"MultilanguageReferrable", k!"Referrable", k!"ARObject"]
 (.node (.node (.node .nil
    -- M2/MSR/Documentation/BlockElements/Figure.py:8
    k!"GraphicFitEnum" [k!"GraphicFitEnum", k!"AREnum", k!"ARLiteral", k!"ARType"]
    .nil)
   -- M2/AUTOSARTemplates/EcuResourceTemplate/HwElementCategory.py:45
   k!"HwAttributeDef" [k!"HwAttributeDef", k!"Identifiable", k!"MultilanguageReferrable", k!"Referrable", k!"ARObject"]
   (.node .nil
    -- M2/AUTOSARTemplates/EcuResourceTemplate/__init__.py:318
    k!"HwPinConnector" [k!"HwPinConnector", k!"Describable", k!"ARObject"]
    .nil))
  -- M2/AUTOSARTemplates/SystemTemplate/Fibex/Fibex4Multiplatform.py:53
  k!"ISignalMapping" [k!"ISignalMapping", k!"ARObject"]
  (.node (.node .nil
    -- M2/AUTOSARTemplates/CommonStructure/Implementation.py:585
    k!"Implementation" [k!"Implementation", k!"ARElement", k!"PackageableElement", k!"Identifiable", k!"MultilanguageReferrable", k!"Referrable", k!"ARObject"]
    .nil)
   -- M2/AUTOSARTemplates/SystemTemplate/NetworkManagement.py:1352
   k!"J1939NmCluster" [k!"J1939NmCluster", k!"NmCluster", k!"Identifiable", k!"MultilanguageReferrable", k!"Referrable", k!"ARObject"]
   (.node .nil
    -- M2/AUTOSARTemplates/CommonStructure/MeasurementCalibrationSupport/__init__.py:1010
    k!"McDataInstance" [k!"McDataInstance", k!"Identifiable", k!"MultilanguageReferrable", k!"Referrable", k!"ARObject"]
    .nil))))

def classTable32 : Bst (List Key) :=
 (.node (.node (.node (.node (.node .nil
     -- M2/MSR/Documentation/Chapters.py:540
     k!"MsrQueryTopic1" [k!"MsrQueryTopic1", k!"ARObject"]
     .nil)
    -- M2/AUTOSARTemplates/SWComponentTemplate/Components/__init__.py:392
    k!"PPortPrototype" [k!"PPortPrototype", k!"AbstractProvidedPortPrototype", k!"PortPrototype", k!"AtpPrototype", k!"AtpBlueprintable", k!"PackageableElement", k!"Identifiable", k!"MultilanguageReferrable", k!"Referrable", k!"ARObject"]
    .nil)
   -- M2/AUTOSARTemplates/SWComponentTemplate/Components/__init__.py:411
   k!"RPortPrototype" [k!"RPortPrototype", k!"AbstractRequiredPortPrototype", k!"PortPrototype", k!"AtpPrototype", k!"AtpBlueprintable", k!"PackageableElement", k!"Identifiable", k!"MultilanguageReferrable", k!"Referrable", k!"ARObject"]
   (.node .nil
    -- M2/AUTOSARTemplates/SystemTemplate/Fibex/Fibex4Lin/LinCommunication.py:79
    k!"ResumePosition" [k!"ResumePosition", k!"AREnum", k!"ARLiteral", k!"ARType"]
    .nil))
  -- M2/AUTOSARTemplates/CommonStructure/MeasurementCalibrationSupport/RptSupport/__init__.py:892
  k!"RptSupportData" [k!"RptSupportData", k!"ARObject"]
  (.node (.node .nil
    -- M2/AUTOSARTemplates/CommonStructure/FlatMap.py:407
    k!"RtePluginProps" [k!"RtePluginProps", k!"ARObject"]
    .nil)
   -- M2/AUTOSARTemplates/SWComponentTemplate/SwcInternalBehavior/__init__.py:104
   k!"RunnableEntity" [k!"RunnableEntity", k!"ExecutableEntity", k!"Identifiable", k!"MultilanguageReferrable", k!"Referrable", k!"ARObject"]
   (.node .nil
    -- M2/AUTOSARTemplates/SystemTemplate/Fibex/Fibex4Ethernet/EthernetTopology.py:870
    k!"SdClientConfig" [k!"SdClientConfig", k!"ARObject"]
    .nil)))
 -- M2/AUTOSARTemplates/SystemTemplate/Fibex/Fibex4Ethernet/ServiceInstances.py:644
 k!"SdServerConfig" [k!"SdServerConfig", k!"ARObject"]
 (.node (.node (.node .nil
    -- M2/MSR/DataDictionary/DataDefProperties.py:415
    k!"SwDataDefProps" [k!"SwDataDefProps", k!"ARObject"]
    .nil)
   -- M2/MSR/DataDictionary/RecordLayout.py:286
   k!"SwRecordLayout" [k!"SwRecordLayout", k!"ARElement", k!"PackageableElement", k!"Identifiable", k!"MultilanguageReferrable", k!"Referrable", k!"ARObject"]
   (.node .nil
    -- M2/AUTOSARTemplates/CommonStructure/Timing/TimingClock/TDLETZoneClock.py:5
    k!"TDLETZoneClock" [k!"TDLETZoneClock", k!"ARObject"]
    .nil))
  -- M2/AUTOSARTemplates/CommonStructure/ServiceNeeds.py:4459
  k!"TransientFault" [k!"TransientFault", k!"TracedFailure", k!"Identifiable", k!"MultilanguageReferrable", k!"Referrable", k!"ARObject"]
  (.node (.node .nil
    -- M2/AUTOSARTemplates/CommonStructure/TriggerDeclaration.py:90
    k!"TriggerMapping" [k!"TriggerMapping", k!"ARObject"]
    .nil)
   -- M2/AUTOSARTemplates/SystemTemplate/Fibex/FibexCore/CoreCommunication.py:2083
   k!"UserDefinedPdu" [k!"UserDefinedPdu", k!"Pdu", k!"FibexElement", k!"PackageableElement", k!"Identifiable", k!"MultilanguageReferrable", k!"Referrable", k!"ARObject"]
   (.node .nil
    -- M2/AUTOSARTemplates/SWComponentTemplate/SwcInternalBehavior/DataElements.py:79
    k!"VariableAccess" [k!"VariableAccess", k!"AbstractAccessPoint", k!"AtpStructureElement", k!"AtpBlueprintable", k!"PackageableElement", k!"Identifiable", k!"MultilanguageReferrable", k!"Referrable", k!"ARObject"]
    .nil))))

-- M2/AUTOSARTemplates/CommonStructure/ModeDeclaration.py:537
def classTable33 : Bst (List Key) :=
 .node classTable31 k!"ModeTransition" [k!"ModeTransition", k!"AtpStructureElement", k!"AtpBlueprintable", k!"PackageableElement", k!"Identifiable", k!"MultilanguageReferrable", k!"Referrable", k!"ARObject"] classTable32

def classTable34 : Bst (List Key) :=
 (.node (.node (.node (.node (.node .nil
     -- M2/AUTOSARTemplates/GenericStructure/GeneralTemplateClasses/PrimitiveTypes.py:1350
     k!"VerbatimString" [k!"VerbatimString", k!"ARLiteral", k!"ARType"]
     .nil)
    -- M2/AUTOSARTemplates/SystemTemplate/Fibex/Fibex4Ethernet/EthernetTopology.py:372
    k!"VlanMembership" [k!"VlanMembership", k!"ARObject"]
    .nil)
   -- M2/AUTOSARTemplates/AutosarTopLevelStructure/__init__.py:50
   k!"AbstractAUTOSAR" [k!"AbstractAUTOSAR", k!"CollectableElement", k!"ARObject"]
   (.node .nil
    -- M2/AUTOSARTemplates/GenericStructure/GeneralTemplateClasses/Enumerations.py:11
    k!"AutoCollectEnum" [k!"AutoCollectEnum"]
    .nil))
  -- M2/AUTOSARTemplates/SWComponentTemplate/Datatype/Datatypes.py:18
  k!"AutosarDataType" [k!"AutosarDataType", k!"AtpType", k!"AtpClassifier", k!"PackageableElement", k!"Identifiable", k!"MultilanguageReferrable", k!"Referrable", k!"ARObject"]
  (.node (.node .nil
    -- M2/AUTOSARTemplates/SWComponentTemplate/SwcInternalBehavior/RTEEvents.py:504
    k!"BackgroundEvent" [k!"BackgroundEvent", k!"RTEEvent", k!"AtpStructureElement", k!"AtpBlueprintable", k!"PackageableElement", k!"AbstractEvent", k!"Identifiable", k!"MultilanguageReferrable", k!"Referrable", k!"ARObject"]
    .nil)
   -- M2/AUTOSARTemplates/GenericStructure/GeneralTemplateClasses/Enumerations.py:26
   k!"BindingTimeEnum" [k!"BindingTimeEnum", k!"AREnum", k!"ARLiteral", k!"ARType"]
   (.node .nil
    -- M2/AUTOSARTemplates/BswModuleTemplate/BswBehavior/__init__.py:714
    k!"BswCalledEntity" [k!"BswCalledEntity", k!"BswModuleEntity", k!"ExecutableEntity", k!"Identifiable", k!"MultilanguageReferrable", k!"Referrable", k!"ARObject"]
    .nil)))
 -- M2/AUTOSARTemplates/BswModuleTemplate/BswBehavior/__init__.py:408
 k!"BswModuleEntity" [k!"BswModuleEntity", k!"ExecutableEntity", k!"Identifiable", k!"MultilanguageReferrable", k!"Referrable", k!"ARObject"]
 (.node (.node (.node .nil
    -- M2/AUTOSARTemplates/SystemTemplate/TransportProtocols.py:159
    k!"CanTpConnection" [k!"CanTpConnection", k!"TpConnection", k!"ARObject"]
    .nil)
   -- M2/AUTOSARTemplates/CommonStructure/ServiceNeeds.py:2109
   k!"ComMgrUserNeeds" [k!"ComMgrUserNeeds", k!"ServiceNeeds", k!"Identifiable", k!"MultilanguageReferrable", k!"Referrable", k!"ARObject"]
   (.node .nil
    -- M2/AUTOSARTemplates/SystemTemplate/Fibex/FibexCore/CoreTopology.py:72
    k!"CycleRepetition" [k!"CycleRepetition", k!"CommunicationCycle", k!"ARObject"]
    .nil))
  -- M2/AUTOSARTemplates/SystemTemplate/Fibex/Fibex4Ethernet/EthernetTopology.py:35
  k!"EthernetCluster" [k!"EthernetCluster", k!"CommunicationCluster", k!"FibexElement", k!"PackageableElement", k!"Identifiable", k!"MultilanguageReferrable", k!"Referrable", k!"ARObject"]
  (.node (.node .nil
    -- M2/AUTOSARTemplates/AutosarTopLevelStructure/__init__.py:26
    k!"FileInfoComment" [k!"FileInfoComment", k!"ARObject"]
    .nil)
   -- M2/AUTOSARTemplates/SystemTemplate/Fibex/FibexCore/CoreCommunication.py:1547
   k!"FrameTriggering" [k!"FrameTriggering", k!"Identifiable", k!"MultilanguageReferrable", k!"Referrable", k!"ARObject"]
   (.node .nil
    -- M2/AUTOSARTemplates/SystemTemplate/Fibex/Fibex4Lin/LinCommunication.py:173
    k!"FreeFormatEntry" [k!"FreeFormatEntry", k!"ScheduleTableEntry", k!"ARObject"]
    .nil))))

def classTable35 : Bst (List Key) :=
 (.node (.node (.node (.node .nil
    -- M2/MSR/AsamHdo/Constraints/GlobalConstraints.py:18
    k!"InternalConstrs" [k!"InternalConstrs", k!"ARObject"]
    .nil)
   -- M2/AUTOSARTemplates/GenericStructure/LifeCycles.py:15
   k!"LifeCyclePeriod" [k!"LifeCyclePeriod", k!"ARObject"]
   (.node .nil
    -- M2/AUTOSARTemplates/SystemTemplate/TransportProtocols.py:693
    k!"LinTpConnection" [k!"LinTpConnection", k!"TpConnection", k!"ARObject"]
    .nil))
  -- M2/AUTOSARTemplates/CommonStructure/ServiceNeeds.py:3495
  k!"MaxCommModeEnum" [k!"MaxCommModeEnum", k!"AREnum", k!"ARLiteral", k!"ARType"]
  (.node (.node .nil
    -- M2/AUTOSARTemplates/SWComponentTemplate/PortInterface/__init__.py:263
    k!"MetaDataItemSet" [k!"MetaDataItemSet", k!"ARObject"]
    .nil)
   -- M2/AUTOSARTemplates/SWComponentTemplate/SwcInternalBehavior/ModeDeclarationGroup.py:15
   k!"ModeAccessPoint" [k!"ModeAccessPoint", k!"ARObject"]
   (.node .nil
    -- M2/AUTOSARTemplates/CommonStructure/ModeDeclaration.py:151
    k!"ModeDeclaration" [k!"ModeDeclaration", k!"AtpStructureElement", k!"AtpBlueprintable", k!"PackageableElement", k!"Identifiable", k!"MultilanguageReferrable", k!"Referrable", k!"ARObject"]
    .nil)))
 -- M2/AUTOSARTemplates/SWComponentTemplate/SwcInternalBehavior/ModeDeclarationGroup.py:79
 k!"ModeSwitchPoint" [k!"ModeSwitchPoint", k!"AbstractAccessPoint", k!"AtpStructureElement", k!"AtpBlueprintable", k!"PackageableElement", k!"Identifiable", k!"MultilanguageReferrable", k!"Referrable", k!"ARObject"]
 (.node (.node (.node .nil
    -- M2/MSR/Documentation/Chapters.py:493
    k!"MsrQueryChapter" [k!"MsrQueryChapter", k!"ARObject"]
    .nil)
   -- M2/AUTOSARTemplates/SystemTemplate/Fibex/FibexCore/CoreCommunication.py:1905
   k!"MultiplexedIPdu" [k!"MultiplexedIPdu", k!"IPdu", k!"Pdu", k!"FibexElement", k!"PackageableElement", k!"Identifiable", k!"MultilanguageReferrable", k!"Referrable", k!"ARObject"]
   (.node .nil
    -- M2/AUTOSARTemplates/SystemTemplate/Fibex/FibexCore/CoreCommunication.py:1776
    k!"MultiplexedPart" [k!"MultiplexedPart", k!"ARObject"]
    .nil))
  -- M2/AUTOSARTemplates/SystemTemplate/Fibex/Fibex4Ethernet/NetworkEndpoint.py:422
  k!"NetworkEndpoint" [k!"NetworkEndpoint", k!"Identifiable", k!"MultilanguageReferrable", k!"Referrable", k!"ARObject"]
  (.node (.node .nil
    -- M2/AUTOSARTemplates/CommonStructure/Constants/__init__.py:802
    k!"NumericalOrText" [k!"NumericalOrText", k!"ARObject"]
    .nil)
   -- M2/AUTOSARTemplates/SWComponentTemplate/PortInterface/__init__.py:133
   k!"NvDataInterface" [k!"NvDataInterface", k!"DataInterface", k!"PortInterface", k!"AtpType", k!"AtpClassifier", k!"PackageableElement", k!"Identifiable", k!"MultilanguageReferrable", k!"Referrable", k!"ARObject"]
   (.node .nil
    -- M2/AUTOSARTemplates/SWComponentTemplate/Components/__init__.py:440
    k!"PRPortPrototype" [k!"PRPortPrototype", k!"PortPrototype", k!"AtpPrototype", k!"AtpBlueprintable", k!"PackageableElement", k!"Identifiable", k!"MultilanguageReferrable", k!"Referrable", k!"ARObject"]
    .nil))))

-- M2/AUTOSARTemplates/SystemTemplate/Fibex/FibexCore/CoreCommunication.py:1201
def classTable36 : Bst (List Key) :=
 .node classTable34 k!"ISignalTypeEnum" [k!"ISignalTypeEnum", k!"AREnum", k!"ARLiteral", k!"ARType"] classTable35

-- M2/AUTOSARTemplates/GenericStructure/VariantHandling/__init__.py:434
def classTable37 : Bst (List Key) :=
 .node classTable33 k!"VariationPoint" [k!"VariationPoint", k!"ARObject"] classTable36

def classTable38 : Bst (List Key) :=
 (.node (.node (.node (.node (.node .nil
     -- M2/AUTOSARTemplates/SystemTemplate/Fibex/FibexCore/CoreTopology.py:109
     k!"PhysicalChannel" [k!"PhysicalChannel", k!"Identifiable", k!"MultilanguageReferrable", k!"Referrable", k!"ARObject"]
     .nil)
    -- M2/AUTOSARTemplates/GenericStructure/GeneralTemplateClasses/PrimitiveTypes.py:663
    k!"PositiveInteger" [k!"PositiveInteger", k!"ARPositiveInteger", k!"ARNumerical", k!"ARType"]
    .nil)
   -- M2/AUTOSARTemplates/SWComponentTemplate/Communication.py:905
   k!"ReceiverComSpec" [k!"ReceiverComSpec", k!"RPortComSpec", k!"ARObject"]
   (.node .nil
    -- M2/AUTOSARTemplates/CommonStructure/MeasurementCalibrationSupport/RptSupport/__init__.py:263
    k!"RptServicePoint" [k!"RptServicePoint", k!"Identifiable", k!"MultilanguageReferrable", k!"Referrable", k!"ARObject"]
    .nil))
  -- M2/AUTOSARTemplates/SystemTemplate/Fibex/FibexCore/CoreCommunication.py:1728
  k!"SegmentPosition" [k!"SegmentPosition", k!"ARObject"]
  (.node (.node .nil
    -- M2/AUTOSARTemplates/SWComponentTemplate/SwcInternalBehavior/ServerCall.py:12
    k!"ServerCallPoint" [k!"ServerCallPoint", k!"AbstractAccessPoint", k!"AtpStructureElement", k!"AtpBlueprintable", k!"PackageableElement", k!"Identifiable", k!"MultilanguageReferrable", k!"Referrable", k!"ARObject"]
    .nil)
   -- M2/AUTOSARTemplates/CommonStructure/ResourceConsumption/__init__.py:144
   k!"SoftwareContext" [k!"SoftwareContext", k!"ARObject"]
   (.node .nil
    -- M2/MSR/DataDictionary/CalibrationParameter.py:209
    k!"SwCalprmAxisSet" [k!"SwCalprmAxisSet", k!"ARObject"]
    .nil)))
 -- M2/AUTOSARTemplates/SWComponentTemplate/SwComponentType.py:30
 k!"SwComponentType" [k!"SwComponentType", k!"AtpType", k!"AtpClassifier", k!"PackageableElement", k!"Identifiable", k!"MultilanguageReferrable", k!"Referrable", k!"ARObject"]
 (.node (.node (.node .nil
    -- M2/MSR/DataDictionary/RecordLayout.py:24
    k!"SwRecordLayoutV" [k!"SwRecordLayoutV", k!"ARObject"]
    .nil)
   -- M2/AUTOSARTemplates/SystemTemplate/__init__.py:23
   k!"SwcToEcuMapping" [k!"SwcToEcuMapping", k!"Identifiable", k!"MultilanguageReferrable", k!"Referrable", k!"ARObject"]
   (.node .nil
    -- M2/AUTOSARTemplates/CommonStructure/Timing/TimingCondition/TimingCondition.py:5
    k!"TimingCondition" [k!"TimingCondition", k!"ARObject"]
    .nil))
  -- M2/AUTOSARTemplates/CommonStructure/Timing/TimingConstraint/TimingExtensions.py:21
  k!"TimingExtension" [k!"TimingExtension", k!"ARElement", k!"PackageableElement", k!"Identifiable", k!"MultilanguageReferrable", k!"Referrable", k!"ARObject"]
  (.node (.node .nil
    -- M2/MSR/Documentation/Chapters.py:353
    k!"TopicOrMsrQuery" [k!"TopicOrMsrQuery", k!"ARObject"]
    .nil)
   -- M2/AUTOSARTemplates/SystemTemplate/Fibex/FibexCore/CoreCommunication.py:2116
   k!"UserDefinedIPdu" [k!"UserDefinedIPdu", k!"IPdu", k!"Pdu", k!"FibexElement", k!"PackageableElement", k!"Identifiable", k!"MultilanguageReferrable", k!"Referrable", k!"ARObject"]
   (.node .nil
    -- M2/AUTOSARTemplates/CommonStructure/ServiceNeeds.py:4530
    k!"V2xFacUserNeeds" [k!"V2xFacUserNeeds", k!"ServiceNeeds", k!"Identifiable", k!"MultilanguageReferrable", k!"Referrable", k!"ARObject"]
    .nil))))

def classTable39 : Bst (List Key) :=
 (.node (.node (.node (.node .nil
    -- M2/AUTOSARTemplates/SystemTemplate/Fibex/Fibex4Lin/LinCommunication.py:147
    k!"ApplicationEntry" [k!"ApplicationEntry", k!"ScheduleTableEntry", k!"ARObject"]
    .nil)
   -- M2/AUTOSARTemplates/SWComponentTemplate/PortInterface/__init__.py:474
   k!"ApplicationError" [k!"ApplicationError", k!"Identifiable", k!"MultilanguageReferrable", k!"Referrable", k!"ARObject"]
   (.node .nil
    -- M2/AUTOSARTemplates/GenericStructure/AbstractStructure.py:105
    k!"AtpBlueprintable" [k!"AtpBlueprintable", k!"PackageableElement", k!"Identifiable", k!"MultilanguageReferrable", k!"Referrable", k!"ARObject"]
    .nil))
  -- M2/AUTOSARTemplates/BswModuleTemplate/BswInterfaces.py:17
  k!"BswEntryKindEnum" [k!"BswEntryKindEnum", k!"AREnum", k!"ARLiteral", k!"ARType"]
  (.node (.node .nil
    -- M2/AUTOSARTemplates/BswModuleTemplate/BswBehavior/__init__.py:1007
    k!"BswScheduleEvent" [k!"BswScheduleEvent", k!"BswEvent", k!"AbstractEvent", k!"Identifiable", k!"MultilanguageReferrable", k!"Referrable", k!"ARObject"]
    .nil)
   -- M2/AUTOSARTemplates/SystemTemplate/Transformer/__init__.py:120
   k!"BufferProperties" [k!"BufferProperties", k!"ARObject"]
   (.node .nil
    -- M2/AUTOSARTemplates/SystemTemplate/NetworkManagement.py:721
    k!"BusspecificNmEcu" [k!"BusspecificNmEcu", k!"ARObject"]
    .nil)))
 -- M2/MSR/DataDictionary/DataDefProperties.py:328
 k!"CompuGenericMath" [k!"CompuGenericMath", k!"ARObject"]
 (.node (.node (.node .nil
    -- M2/AUTOSARTemplates/SWComponentTemplate/ImplicitCommunicationBehavior/__init__.py:190
    k!"ConsistencyNeeds" [k!"ConsistencyNeeds", k!"AtpBlueprintable", k!"PackageableElement", k!"Identifiable", k!"MultilanguageReferrable", k!"Referrable", k!"ARObject"]
    .nil)
   -- M2/AUTOSARTemplates/SystemTemplate/Fibex/Fibex4Ethernet/EthernetTopology.py:113
   k!"CouplingPortFifo" [k!"CouplingPortFifo", k!"CouplingPortStructuralElement", k!"Identifiable", k!"MultilanguageReferrable", k!"Referrable", k!"ARObject"]
   (.node .nil
    -- M2/AUTOSARTemplates/CommonStructure/ServiceNeeds.py:2253
    k!"DevelopmentError" [k!"DevelopmentError", k!"TracedFailure", k!"Identifiable", k!"MultilanguageReferrable", k!"Referrable", k!"ARObject"]
    .nil))
  -- M2/AUTOSARTemplates/SystemTemplate/TransportProtocols.py:544
  k!"DoIpLogicAddress" [k!"DoIpLogicAddress", k!"Identifiable", k!"MultilanguageReferrable", k!"Referrable", k!"ARObject"]
  (.node (.node .nil
    -- M2/AUTOSARTemplates/CommonStructure/ServiceNeeds.py:2826
    k!"DoIpServiceNeeds" [k!"DoIpServiceNeeds", k!"ServiceNeeds", k!"Identifiable", k!"MultilanguageReferrable", k!"Referrable", k!"ARObject"]
    .nil)
   -- M2/AUTOSARTemplates/SystemTemplate/TransportProtocols.py:581
   k!"DoIpTpConnection" [k!"DoIpTpConnection", k!"TpConnection", k!"ARObject"]
   (.node .nil
    -- M2/AUTOSARTemplates/ECUCParameterDefTemplate.py:500
    k!"EcucContainerDef" [k!"EcucContainerDef", k!"EcucDefinitionElement", k!"Identifiable", k!"MultilanguageReferrable", k!"Referrable", k!"ARObject"]
    .nil))))

-- M2/AUTOSARTemplates/CommonStructure/InternalBehavior.py:527
def classTable40 : Bst (List Key) :=
 .node classTable38 k!"ApiPrincipleEnum" [k!"ApiPrincipleEnum", k!"AREnum", k!"ARLiteral", k!"ARType"] classTable39

def classTable41 : Bst (List Key) :=
 (.node (.node (.node (.node (.node .nil
     -- M2/AUTOSARTemplates/ECUCParameterDefTemplate.py:1090
     k!"EcucReferenceDef" [k!"EcucReferenceDef", k!"EcucAbstractInternalReferenceDef", k!"EcucAbstractReferenceDef", k!"EcucCommonAttributes", k!"EcucDefinitionElement", k!"Identifiable", k!"MultilanguageReferrable", k!"Referrable", k!"ARObject"]
     .nil)
    -- M2/AUTOSARTemplates/CommonStructure/ServiceNeeds.py:3045
    k!"ErrorTracerNeeds" [k!"ErrorTracerNeeds", k!"ServiceNeeds", k!"Identifiable", k!"MultilanguageReferrable", k!"Referrable", k!"ARObject"]
    .nil)
   -- M2/AUTOSARTemplates/CommonStructure/InternalBehavior.py:73
   k!"ExecutableEntity" [k!"ExecutableEntity", k!"Identifiable", k!"MultilanguageReferrable", k!"Referrable", k!"ARObject"]
   (.node .nil
    -- M2/AUTOSARTemplates/SystemTemplate/Fibex/Fibex4Flexray/FlexrayTopology.py:1155
    k!"FlexrayFifoRange" [k!"FlexrayFifoRange", k!"ARObject"]
    .nil))
  -- M2/AUTOSARTemplates/SystemTemplate/NetworkManagement.py:1338
  k!"FlexrayNmCluster" [k!"FlexrayNmCluster", k!"NmCluster", k!"Identifiable", k!"MultilanguageReferrable", k!"Referrable", k!"ARObject"]
  (.node (.node .nil
    -- M2/AUTOSARTemplates/EcuResourceTemplate/HwAttributeValue.py:13
    k!"HwAttributeValue" [k!"HwAttributeValue", k!"ARObject"]
    .nil)
   -- M2/AUTOSARTemplates/SystemTemplate/Fibex/FibexCore/CoreCommunication.py:310
   k!"ISignalIPduGroup" [k!"ISignalIPduGroup", k!"FibexElement", k!"PackageableElement", k!"Identifiable", k!"MultilanguageReferrable", k!"Referrable", k!"ARObject"]
   (.node .nil
    -- M2/AUTOSARTemplates/CommonStructure/InternalBehavior.py:324
    k!"InternalBehavior" [k!"InternalBehavior", k!"AtpStructureElement", k!"AtpBlueprintable", k!"PackageableElement", k!"Identifiable", k!"MultilanguageReferrable", k!"Referrable", k!"ARObject"]
    .nil)))
 -- M2/AUTOSARTemplates/GenericStructure/GeneralTemplateClasses/PrimitiveTypes.py:911
 k!"IntervalTypeEnum" [k!"IntervalTypeEnum", k!"AREnum", k!"ARLiteral", k!"ARType"]
 (.node (.node (.node .nil
    -- M2/AUTOSARTemplates/GenericStructure/GeneralTemplateClasses/PrimitiveTypes.py:1177
    k!"Ip4AddressString" [k!"Ip4AddressString", k!"ARLiteral", k!"ARType"]
    .nil)
   -- M2/AUTOSARTemplates/GenericStructure/GeneralTemplateClasses/PrimitiveTypes.py:1194
   k!"Ip6AddressString" [k!"Ip6AddressString", k!"ARLiteral", k!"ARType"]
   (.node .nil
    -- M2/MSR/Documentation/TextModel/BlockElements/ListElements.py:89
    k!"ItemLabelPosEnum" [k!"ItemLabelPosEnum", k!"AREnum", k!"ARLiteral", k!"ARType"]
    .nil))
  -- M2/MSR/Documentation/TextModel/LanguageDataModel.py:139
  k!"LanguageSpecific" [k!"LanguageSpecific", k!"ARObject"]
  (.node (.node .nil
    -- M2/AUTOSARTemplates/GenericStructure/LifeCycles.py:286
    k!"LifeCycleInfoSet" [k!"LifeCycleInfoSet", k!"ARElement", k!"PackageableElement", k!"Identifiable", k!"MultilanguageReferrable", k!"Referrable", k!"ARObject"]
    .nil)
   -- M2/AUTOSARTemplates/SystemTemplate/Fibex/Fibex4Lin/LinCommunication.py:206
   k!"LinScheduleTable" [k!"LinScheduleTable", k!"Identifiable", k!"MultilanguageReferrable", k!"Referrable", k!"ARObject"]
   (.node .nil
    -- M2/AUTOSARTemplates/GenericStructure/GeneralTemplateClasses/PrimitiveTypes.py:1213
    k!"MacAddressString" [k!"MacAddressString", k!"ARLiteral", k!"ARType"]
    .nil))))

def classTable42 : Bst (List Key) :=
 (.node (.node (.node (.node .nil
    -- M2/AUTOSARTemplates/SWComponentTemplate/Communication.py:771
    k!"NvRequireComSpec" [k!"NvRequireComSpec", k!"RPortComSpec", k!"ARObject"]
    .nil)
   -- M2/AUTOSARTemplates/SystemTemplate/Fibex/Fibex4Ethernet/EthernetCommunication.py:316
   k!"SoAdRoutingGroup" [k!"SoAdRoutingGroup", k!"FibexElement", k!"PackageableElement", k!"Identifiable", k!"MultilanguageReferrable", k!"Referrable", k!"ARObject"]
   (.node .nil
    -- M2/AUTOSARTemplates/SystemTemplate/Fibex/Fibex4Ethernet/EthernetCommunication.py:11
    k!"SocketConnection" [k!"SocketConnection", k!"Describable", k!"ARObject"]
    .nil))
  -- M2/MSR/DataDictionary/Axis.py:117
  k!"SwAxisIndividual" [k!"SwAxisIndividual", k!"SwCalprmAxisTypeProps", k!"ARObject"]
  (.node (.node .nil
    -- M2/MSR/DataDictionary/DataDefProperties.py:222
    k!"SwCalprmRefProxy" [k!"SwCalprmRefProxy", k!"ARObject"]
    .nil)
   -- M2/MSR/DataDictionary/DataDefProperties.py:362
   k!"SwDataDependency" [k!"SwDataDependency", k!"ARObject"]
   (.node .nil
    -- M2/MSR/DataDictionary/DataDefProperties.py:29
    k!"SwImplPolicyEnum" [k!"SwImplPolicyEnum", k!"AREnum", k!"ARLiteral", k!"ARType"]
    .nil)))
 -- M2/AUTOSARTemplates/SystemTemplate/SWmapping.py:10
 k!"SwcToImplMapping" [k!"SwcToImplMapping", k!"Identifiable", k!"MultilanguageReferrable", k!"Referrable", k!"ARObject"]
 (.node (.node (.node .nil
    -- M2/AUTOSARTemplates/SWComponentTemplate/PortInterface/__init__.py:1341
    k!"TextTableMapping" [k!"TextTableMapping", k!"ARObject"]
    .nil)
   -- M2/AUTOSARTemplates/CommonStructure/Timing/TimingConstraint/TimingConstraint.py:23
   k!"TimingConstraint" [k!"TimingConstraint", k!"Traceable", k!"Identifiable", k!"MultilanguageReferrable", k!"Referrable", k!"ARObject"]
   (.node .nil
    -- M2/AUTOSARTemplates/SWComponentTemplate/PortInterface/__init__.py:731
    k!"TriggerInterface" [k!"TriggerInterface", k!"PortInterface", k!"AtpType", k!"AtpClassifier", k!"PackageableElement", k!"Identifiable", k!"MultilanguageReferrable", k!"Referrable", k!"ARObject"]
    .nil))
  -- M2/AUTOSARTemplates/GenericStructure/GeneralTemplateClasses/PrimitiveTypes.py:716
  k!"UnlimitedInteger" [k!"UnlimitedInteger", k!"Integer", k!"ARNumerical", k!"ARType"]
  (.node (.node .nil
    -- M2/AUTOSARTemplates/GenericStructure/GeneralTemplateClasses/PrimitiveTypes.py:531
    k!"ARPositiveInteger" [k!"ARPositiveInteger", k!"ARNumerical", k!"ARType"]
    .nil)
   -- M2/AUTOSARTemplates/BswModuleTemplate/BswImplementation.py:13
   k!"BswImplementation" [k!"BswImplementation", k!"Implementation", k!"ARElement", k!"PackageableElement", k!"Identifiable", k!"MultilanguageReferrable", k!"Referrable", k!"ARObject"]
   (.node .nil
    -- M2/AUTOSARTemplates/BswModuleTemplate/BswBehavior/BswInterruptEvent.py:8
    k!"BswInterruptEvent" [k!"BswInterruptEvent", k!"BswEvent", k!"AbstractEvent", k!"Identifiable", k!"MultilanguageReferrable", k!"Referrable", k!"ARObject"]
    .nil))))

-- M2/AUTOSARTemplates/SWComponentTemplate/Communication.py:1480
def classTable43 : Bst (List Key) :=
 .node classTable41 k!"NvProvideComSpec" [k!"NvProvideComSpec", k!"PPortComSpec", k!"ARObject"] classTable42

-- M2/AUTOSARTemplates/ECUCParameterDefTemplate.py:856
def classTable44 : Bst (List Key) :=
 .node classTable40 k!"EcucParameterDef" [k!"EcucParameterDef", k!"EcucCommonAttributes", k!"EcucDefinitionElement", k!"Identifiable", k!"MultilanguageReferrable", k!"Referrable", k!"ARObject"] classTable43

-- M2/AUTOSARTemplates/SWComponentTemplate/SwcInternalBehavior/DataElements.py:15
def classTable45 : Bst (List Key) :=
 .node classTable37 k!"ParameterAccess" [k!"ParameterAccess", k!"AbstractAccessPoint", k!"AtpStructureElement", k!"AtpBlueprintable", k!"PackageableElement", k!"Identifiable", k!"MultilanguageReferrable", k!"Referrable", k!"ARObject"] classTable44

def classTable46 : Bst (List Key) :=
 (.node (.node (.node (.node (.node .nil
     -- M2/MSR/Documentation/Chapters.py:284
     k!"ChapterOrMsrQuery" [k!"ChapterOrMsrQuery", k!"ARObject"]
     .nil)
    -- M2/AUTOSARTemplates/SystemTemplate/Fibex/FibexCore/CoreTopology.py:783
    k!"CommConnectorPort" [k!"CommConnectorPort", k!"Identifiable", k!"MultilanguageReferrable", k!"Referrable", k!"ARObject"]
    .nil)
   -- M2/MSR/AsamHdo/ComputationMethod.py:87
   k!"CompuConstContent" [k!"CompuConstContent", k!"ARObject"]
   (.node .nil
    -- M2/AUTOSARTemplates/CommonStructure/Constants/__init__.py:465
    k!"ConstantReference" [k!"ConstantReference", k!"ValueSpecification", k!"ARObject"]
    .nil))
  -- M2/AUTOSARTemplates/SWComponentTemplate/ApplicationAttributes/__init__.py:11
  k!"DataLimitKindEnum" [k!"DataLimitKindEnum", k!"AREnum", k!"ARLiteral", k!"ARType"]
  (.node (.node .nil
    -- M2/AUTOSARTemplates/SWComponentTemplate/SwcInternalBehavior/RTEEvents.py:199
    k!"DataReceivedEvent" [k!"DataReceivedEvent", k!"RTEEvent", k!"AtpStructureElement", k!"AtpBlueprintable", k!"PackageableElement", k!"AbstractEvent", k!"Identifiable", k!"MultilanguageReferrable", k!"Referrable", k!"ARObject"]
    .nil)
   -- M2/AUTOSARTemplates/CommonStructure/ServiceNeeds.py:1596
   k!"DtcFormatTypeEnum" [k!"DtcFormatTypeEnum", k!"AREnum", k!"ARLiteral", k!"ARType"]
   (.node .nil
    -- M2/AUTOSARTemplates/ECUCParameterDefTemplate.py:1522
    k!"EcucFloatParamDef" [k!"EcucFloatParamDef", k!"EcucParameterDef", k!"EcucCommonAttributes", k!"EcucDefinitionElement", k!"Identifiable", k!"MultilanguageReferrable", k!"Referrable", k!"ARObject"]
    .nil)))
 -- M2/AUTOSARTemplates/GenericStructure/GeneralTemplateClasses/EngineeringObject.py:12
 k!"EngineeringObject" [k!"EngineeringObject", k!"ARObject"]
 (.node (.node (.node .nil
    -- M2/AUTOSARTemplates/AdaptivePlatform/PlatformModuleDeployment/Firewall/FirewallRuleProps.py:4
    k!"FirewallRuleProps" [k!"FirewallRuleProps", k!"ARObject"]
    .nil)
   -- M2/MSR/Documentation/Annotation.py:8
   k!"GeneralAnnotation" [k!"GeneralAnnotation", k!"ARObject"]
   (.node .nil
    -- M2/AUTOSARTemplates/SystemTemplate/Fibex/FibexCore/CoreCommunication.py:1997
    k!"GeneralPurposePdu" [k!"GeneralPurposePdu", k!"Pdu", k!"FibexElement", k!"PackageableElement", k!"Identifiable", k!"MultilanguageReferrable", k!"Referrable", k!"ARObject"]
    .nil))
  -- M2/AUTOSARTemplates/SWComponentTemplate/Communication.py:24
  k!"HandleInvalidEnum" [k!"HandleInvalidEnum", k!"AREnum", k!"ARLiteral", k!"ARType"]
  (.node (.node .nil
    -- M2/AUTOSARTemplates/SWComponentTemplate/Communication.py:1857
    k!"HandleTimeoutEnum" [k!"HandleTimeoutEnum", k!"AREnum", k!"ARLiteral", k!"ARType"]
    .nil)
   -- M2/AUTOSARTemplates/CommonStructure/ServiceNeeds.py:3262
   k!"HardwareTestNeeds" [k!"HardwareTestNeeds", k!"ServiceNeeds", k!"Identifiable", k!"MultilanguageReferrable", k!"Referrable", k!"ARObject"]
   (.node .nil
    -- M2/AUTOSARTemplates/EcuResourceTemplate/__init__.py:188
    k!"HwPinGroupContent" [k!"HwPinGroupContent", k!"ARObject"]
    .nil))))

def classTable47 : Bst (List Key) :=
 (.node (.node (.node (.node (.node .nil
     -- M2/AUTOSARTemplates/SystemTemplate/Fibex/Fibex4Ethernet/NetworkEndpoint.py:28
     k!"Ipv4Configuration" [k!"Ipv4Configuration", k!"NetworkEndpointAddress", k!"ARObject"]
     .nil)
    -- M2/AUTOSARTemplates/SystemTemplate/Fibex/Fibex4Ethernet/NetworkEndpoint.py:123
    k!"Ipv6Configuration" [k!"Ipv6Configuration", k!"NetworkEndpointAddress", k!"ARObject"]
    .nil)
   -- M2/AUTOSARTemplates/SystemTemplate/Fibex/Fibex4Ethernet/EthernetTopology.py:9
   k!"MacMulticastGroup" [k!"MacMulticastGroup", k!"Identifiable", k!"MultilanguageReferrable", k!"Referrable", k!"ARObject"]
   (.node .nil
    -- M2/AUTOSARTemplates/CommonStructure/McGroups.py:151
    k!"McGroupDataRefSet" [k!"McGroupDataRefSet", k!"ARObject"]
    .nil))
  -- M2/AUTOSARTemplates/CommonStructure/ResourceConsumption/HeapUsage.py:131
  k!"MeasuredHeapUsage" [k!"MeasuredHeapUsage", k!"HeapUsage", k!"Identifiable", k!"MultilanguageReferrable", k!"Referrable", k!"ARObject"]
  (.node (.node .nil
    -- M2/MSR/DataDictionary/AuxillaryObjects.py:34
    k!"MemorySectionType" [k!"MemorySectionType", k!"AREnum", k!"ARLiteral", k!"ARType"]
    .nil)
   -- M2/AUTOSARTemplates/CommonStructure/ModeDeclaration.py:610
   k!"ModeErrorBehavior" [k!"ModeErrorBehavior", k!"ARObject"]
   (.node .nil
    -- M2/AUTOSARTemplates/SystemTemplate/NetworkManagement.py:13
    k!"NmClusterCoupling" [k!"NmClusterCoupling", k!"ARObject"]
    .nil)))
 -- M2/AUTOSARTemplates/SWComponentTemplate/NvBlockComponent.py:305
 k!"NvBlockDescriptor" [k!"NvBlockDescriptor", k!"AtpStructureElement", k!"AtpBlueprintable", k!"PackageableElement", k!"Identifiable", k!"MultilanguageReferrable", k!"Referrable", k!"ARObject"]
 (.node (.node (.node .nil
    -- M2/AUTOSARTemplates/SystemTemplate/Fibex/FibexCore/CoreCommunication.py:38
    k!"PduToFrameMapping" [k!"PduToFrameMapping", k!"Identifiable", k!"MultilanguageReferrable", k!"Referrable", k!"ARObject"]
    .nil)
   -- M2/AUTOSARTemplates/SWComponentTemplate/SwcInternalBehavior/PerInstanceMemory.py:12
   k!"PerInstanceMemory" [k!"PerInstanceMemory", k!"AtpStructureElement", k!"AtpBlueprintable", k!"PackageableElement", k!"Identifiable", k!"MultilanguageReferrable", k!"Referrable", k!"ARObject"]
   (.node .nil
    -- M2/MSR/AsamHdo/Units.py:16
    k!"PhysicalDimension" [k!"PhysicalDimension", k!"ARElement", k!"PackageableElement", k!"Identifiable", k!"MultilanguageReferrable", k!"Referrable", k!"ARObject"]
    .nil))
  -- M2/MSR/Documentation/Chapters.py:92
  k!"PredefinedChapter" [k!"PredefinedChapter", k!"ARObject"]
  (.node (.node .nil
    -- M2/AUTOSARTemplates/GenericStructure/VariantHandling/__init__.py:153
    k!"PredefinedVariant" [k!"PredefinedVariant", k!"Identifiable", k!"MultilanguageReferrable", k!"Referrable", k!"ARObject"]
    .nil)
   -- M2/AUTOSARTemplates/GenericStructure/GeneralTemplateClasses/PrimitiveTypes.py:1390
   k!"RegularExpression" [k!"RegularExpression", k!"ARLiteral", k!"ARType"]
   (.node .nil
    -- M2/AUTOSARTemplates/CommonStructure/Constants/__init__.py:1060
    k!"RuleBasedAxisCont" [k!"RuleBasedAxisCont", k!"ARObject"]
    .nil))))

-- M2/AUTOSARTemplates/SystemTemplate/Fibex/FibexCore/CoreCommunication.py:1683
def classTable48 : Bst (List Key) :=
 .node classTable46 k!"ISignalTriggering" [k!"ISignalTriggering", k!"Identifiable", k!"MultilanguageReferrable", k!"Referrable", k!"ARObject"] classTable47

def classTable49 : Bst (List Key) :=
 (.node (.node (.node (.node (.node .nil
     -- M2/AUTOSARTemplates/CommonStructure/ResourceConsumption/MemorySectionUsage.py:308
     k!"SectionNamePrefix" [k!"SectionNamePrefix", k!"ImplementationProps", k!"Referrable", k!"ARObject"]
     .nil)
    -- M2/AUTOSARTemplates/CommonStructure/ServiceNeeds.py:606
    k!"ServiceDependency" [k!"ServiceDependency", k!"ARObject"]
    .nil)
   -- M2/AUTOSARTemplates/GenericStructure/GeneralTemplateClasses/Identifiable.py:116
   k!"ShortNameFragment" [k!"ShortNameFragment", k!"ARObject"]
   (.node .nil
    -- M2/AUTOSARTemplates/SWComponentTemplate/PortInterface/__init__.py:880
    k!"SubElementMapping" [k!"SubElementMapping", k!"ARObject"]
    .nil))
  -- M2/AUTOSARTemplates/SWComponentTemplate/SwcImplementation.py:11
  k!"SwcImplementation" [k!"SwcImplementation", k!"Implementation", k!"ARElement", k!"PackageableElement", k!"Identifiable", k!"MultilanguageReferrable", k!"Referrable", k!"ARObject"]
  (.node (.node .nil
    -- M2/AUTOSARTemplates/CommonStructure/ServiceNeeds.py:4368
    k!"SymbolicNameProps" [k!"SymbolicNameProps", k!"ImplementationProps", k!"Referrable", k!"ARObject"]
    .nil)
   -- M2/AUTOSARTemplates/SystemTemplate/Fibex/FibexCore/CoreCommunication.py:1630
   k!"SystemSignalGroup" [k!"SystemSignalGroup", k!"ARElement", k!"PackageableElement", k!"Identifiable", k!"MultilanguageReferrable", k!"Referrable", k!"ARObject"]
   (.node .nil
    -- M2/AUTOSARTemplates/SystemTemplate/TransportProtocols.py:116
    k!"TpConnectionIdent" [k!"TpConnectionIdent", k!"Referrable", k!"ARObject"]
    .nil)))
 -- M2/AUTOSARTemplates/SystemTemplate/Fibex/FibexCore/CoreTopology.py:610
 k!"AbstractCanCluster" [k!"AbstractCanCluster", k!"CommunicationCluster", k!"FibexElement", k!"PackageableElement", k!"Identifiable", k!"MultilanguageReferrable", k!"Referrable", k!"ARObject"]
 (.node (.node (.node .nil
    -- M2/AUTOSARTemplates/SWComponentTemplate/SwcInternalBehavior/AutosarVariableRef.py:11
    k!"AutosarVariableRef" [k!"AutosarVariableRef", k!"ARObject"]
    .nil)
   -- M2/MSR/AsamHdo/BaseTypes.py:14
   k!"BaseTypeDefinition" [k!"BaseTypeDefinition", k!"ARObject"]
   (.node .nil
    -- M2/AUTOSARTemplates/CommonStructure/StandardizationTemplate/BlueprintGenerator/BlueprintGenerator.py:7
    k!"BlueprintGenerator" [k!"BlueprintGenerator", k!"ARObject"]
    .nil))
  -- M2/AUTOSARTemplates/BswModuleTemplate/BswBehavior/__init__.py:1708
  k!"BswBackgroundEvent" [k!"BswBackgroundEvent", k!"BswScheduleEvent", k!"BswEvent", k!"AbstractEvent", k!"Identifiable", k!"MultilanguageReferrable", k!"Referrable", k!"ARObject"]
  (.node (.node .nil
    -- M2/AUTOSARTemplates/BswModuleTemplate/BswBehavior/__init__.py:135
    k!"BswDirectCallPoint" [k!"BswDirectCallPoint", k!"BswModuleCallPoint", k!"Referrable", k!"ARObject"]
    .nil)
   -- M2/AUTOSARTemplates/BswModuleTemplate/BswBehavior/__init__.py:780
   k!"BswInterruptEntity" [k!"BswInterruptEntity", k!"BswModuleEntity", k!"ExecutableEntity", k!"Identifiable", k!"MultilanguageReferrable", k!"Referrable", k!"ARObject"]
   (.node .nil
    -- M2/AUTOSARTemplates/BswModuleTemplate/BswBehavior/__init__.py:1087
    k!"BswModeSwitchEvent" [k!"BswModeSwitchEvent", k!"BswScheduleEvent", k!"BswEvent", k!"AbstractEvent", k!"Identifiable", k!"MultilanguageReferrable", k!"Referrable", k!"ARObject"]
    .nil))))

def classTable50 : Bst (List Key) :=
 (.node (.node (.node (.node .nil
    -- M2/AUTOSARTemplates/SystemTemplate/Fibex/Fibex4Can/CanCommunication.py:58
    k!"CanFrameTriggering" [k!"CanFrameTriggering", k!"FrameTriggering", k!"Identifiable", k!"MultilanguageReferrable", k!"Referrable", k!"ARObject"]
    .nil)
   -- M2/AUTOSARTemplates/SystemTemplate/Fibex/FibexCore/CoreTopology.py:216
   k!"CanPhysicalChannel" [k!"CanPhysicalChannel", k!"AbstractCanPhysicalChannel", k!"PhysicalChannel", k!"Identifiable", k!"MultilanguageReferrable", k!"Referrable", k!"ARObject"]
   (.node .nil
    -- M2/AUTOSARTemplates/GenericStructure/GeneralTemplateClasses/Identifiable.py:229
    k!"CollectableElement" [k!"CollectableElement", k!"ARObject"]
    .nil))
  -- M2/AUTOSARTemplates/SystemTemplate/Fibex/FibexCore/CoreTopology.py:17
  k!"CommunicationCycle" [k!"CommunicationCycle", k!"ARObject"]
  (.node (.node .nil
    -- M2/MSR/AsamHdo/ComputationMethod.py:178
    k!"CompuScaleContents" [k!"CompuScaleContents", k!"ARObject"]
    .nil)
   -- M2/AUTOSARTemplates/GenericStructure/VariantHandling/__init__.py:384
   k!"ConditionByFormula" [k!"ConditionByFormula", k!"ARObject"]
   (.node .nil
    -- M2/AUTOSARTemplates/CommonStructure/Timing/TimingConstraint/EventTriggeringConstraint.py:190
    k!"ConfidenceInterval" [k!"ConfidenceInterval", k!"ARObject"]
    .nil)))
 -- M2/AUTOSARTemplates/SystemTemplate/Fibex/Fibex4Ethernet/ServiceInstances.py:300
 k!"ConsumedEventGroup" [k!"ConsumedEventGroup", k!"Identifiable", k!"MultilanguageReferrable", k!"Referrable", k!"ARObject"]
 (.node (.node (.node .nil
    -- M2/AUTOSARTemplates/SystemTemplate/Fibex/FibexCore/CoreCommunication.py:134
    k!"ContainedIPduProps" [k!"ContainedIPduProps", k!"ARObject"]
    .nil)
   -- M2/AUTOSARTemplates/CommonStructure/ServiceNeeds.py:1920
   k!"CryptoServiceNeeds" [k!"CryptoServiceNeeds", k!"ServiceNeeds", k!"Identifiable", k!"MultilanguageReferrable", k!"Referrable", k!"ARObject"]
   (.node .nil
    -- M2/AUTOSARTemplates/CommonStructure/Filter.py:11
    k!"DataFilterTypeEnum" [k!"DataFilterTypeEnum", k!"AREnum", k!"ARLiteral", k!"ARType"]
    .nil))
  -- M2/AUTOSARTemplates/SWComponentTemplate/ImplicitCommunicationBehavior/__init__.py:20
  k!"DataPrototypeGroup" [k!"DataPrototypeGroup", k!"AtpStructureElement", k!"AtpBlueprintable", k!"PackageableElement", k!"Identifiable", k!"MultilanguageReferrable", k!"Referrable", k!"ARObject"]
  (.node (.node .nil
    -- M2/AUTOSARTemplates/SystemTemplate/Transformer/__init__.py:45
    k!"DataTransformation" [k!"DataTransformation", k!"Identifiable", k!"MultilanguageReferrable", k!"Referrable", k!"ARObject"]
    .nil)
   -- M2/AUTOSARTemplates/SWComponentTemplate/Datatype/Datatypes.py:252
   k!"DataTypeMappingSet" [k!"DataTypeMappingSet", k!"AtpBlueprintable", k!"PackageableElement", k!"Identifiable", k!"MultilanguageReferrable", k!"Referrable", k!"ARObject"]
   (.node .nil
    -- M2/AUTOSARTemplates/SystemTemplate/DataMapping.py:423
    k!"DataTypePolicyEnum" [k!"DataTypePolicyEnum", k!"AREnum", k!"ARLiteral", k!"ARType"]
    .nil))))

-- M2/AUTOSARTemplates/BswModuleTemplate/BswBehavior/__init__.py:36
def classTable51 : Bst (List Key) :=
 .node classTable49 k!"BswModuleCallPoint" [k!"BswModuleCallPoint", k!"Referrable", k!"ARObject"] classTable50

-- M2/AUTOSARTemplates/SystemTemplate/Fibex/Fibex4Can/CanCommunication.py:9
def classTable52 : Bst (List Key) :=
 .node classTable48 k!"RxIdentifierRange" [k!"RxIdentifierRange", k!"ARObject"] classTable51

def classTable53 : Bst (List Key) :=
 (.node (.node (.node (.node (.node .nil
     -- M2/AUTOSARTemplates/ECUCDescriptionTemplate.py:299
     k!"EcucContainerValue" [k!"EcucContainerValue", k!"Identifiable", k!"MultilanguageReferrable", k!"Referrable", k!"EcucIndexableValue", k!"ARObject"]
     .nil)
    -- M2/AUTOSARTemplates/ECUCDescriptionTemplate.py:52
    k!"EcucIndexableValue" [k!"EcucIndexableValue", k!"ARObject"]
    .nil)
   -- M2/AUTOSARTemplates/ECUCDescriptionTemplate.py:91
   k!"EcucParameterValue" [k!"EcucParameterValue", k!"EcucIndexableValue", k!"ARObject"]
   (.node .nil
    -- M2/AUTOSARTemplates/ECUCDescriptionTemplate.py:276
    k!"EcucReferenceValue" [k!"EcucReferenceValue", k!"EcucAbstractReferenceValue", k!"EcucIndexableValue", k!"ARObject"]
    .nil))
  -- M2/AUTOSARTemplates/ECUCParameterDefTemplate.py:1346
  k!"EcucStringParamDef" [k!"EcucStringParamDef", k!"EcucAbstractStringParamDef", k!"EcucParameterDef", k!"EcucCommonAttributes", k!"EcucDefinitionElement", k!"Identifiable", k!"MultilanguageReferrable", k!"Referrable", k!"ARObject"]
  (.node (.node .nil
    -- M2/AUTOSARTemplates/SWComponentTemplate/EndToEndProtection.py:407
    k!"EndToEndProtection" [k!"EndToEndProtection", k!"Identifiable", k!"MultilanguageReferrable", k!"Referrable", k!"ARObject"]
    .nil)
   -- M2/AUTOSARTemplates/SystemTemplate/Fibex/FibexCore/CoreTopology.py:346
   k!"FlexrayChannelName" [k!"FlexrayChannelName", k!"AREnum", k!"ARLiteral", k!"ARType"]
   (.node .nil
    -- M2/AUTOSARTemplates/SystemTemplate/Fibex/FibexCore/CoreCommunication.py:2010
    k!"GeneralPurposeIPdu" [k!"GeneralPurposeIPdu", k!"IPdu", k!"Pdu", k!"FibexElement", k!"PackageableElement", k!"Identifiable", k!"MultilanguageReferrable", k!"Referrable", k!"ARObject"]
    .nil)))
 -- M2/AUTOSARTemplates/EcuResourceTemplate/__init__.py:433
 k!"HwElementConnector" [k!"HwElementConnector", k!"Describable", k!"ARObject"]
 (.node (.node (.node .nil
    -- M2/AUTOSARTemplates/SWComponentTemplate/PortInterface/__init__.py:205
    k!"InvalidationPolicy" [k!"InvalidationPolicy", k!"ARObject"]
    .nil)
   -- M2/MSR/Documentation/TextModel/LanguageDataModel.py:195
   k!"LOverviewParagraph" [k!"LOverviewParagraph", k!"LanguageSpecific", k!"ARObject"]
   (.node .nil
    -- M2/AUTOSARTemplates/SystemTemplate/Fibex/Fibex4Lin/LinCommunication.py:42
    k!"LinFrameTriggering" [k!"LinFrameTriggering", k!"FrameTriggering", k!"Identifiable", k!"MultilanguageReferrable", k!"Referrable", k!"ARObject"]
    .nil))
  -- M2/AUTOSARTemplates/SystemTemplate/Fibex/FibexCore/CoreTopology.py:230
  k!"LinPhysicalChannel" [k!"LinPhysicalChannel", k!"PhysicalChannel", k!"Identifiable", k!"MultilanguageReferrable", k!"Referrable", k!"ARObject"]
  (.node (.node .nil
    -- M2/AUTOSARTemplates/CommonStructure/ResourceConsumption/StackUsage.py:161
    k!"MeasuredStackUsage" [k!"MeasuredStackUsage", k!"StackUsage", k!"Identifiable", k!"MultilanguageReferrable", k!"Referrable", k!"ARObject"]
    .nil)
   -- M2/AUTOSARTemplates/CommonStructure/ModeDeclaration.py:15
   k!"ModeActivationKind" [k!"ModeActivationKind", k!"AREnum", k!"ARLiteral", k!"ARType"]
   (.node .nil
    -- M2/AUTOSARTemplates/SWComponentTemplate/ApplicationAttributes/__init__.py:422
    k!"ModePortAnnotation" [k!"ModePortAnnotation", k!"GeneralAnnotation", k!"ARObject"]
    .nil))))

def classTable54 : Bst (List Key) :=
 (.node (.node (.node (.node .nil
    -- M2/AUTOSARTemplates/SWComponentTemplate/NvBlockComponent.py:13
    k!"NvBlockDataMapping" [k!"NvBlockDataMapping", k!"ARObject"]
    .nil)
   -- M2/AUTOSARTemplates/CommonStructure/ServiceNeeds.py:3706
   k!"ObdPidServiceNeeds" [k!"ObdPidServiceNeeds", k!"DiagnosticCapabilityElement", k!"ServiceNeeds", k!"Identifiable", k!"MultilanguageReferrable", k!"Referrable", k!"ARObject"]
   (.node .nil
    -- M2/AUTOSARTemplates/GenericStructure/GeneralTemplateClasses/Identifiable.py:622
    k!"PackageableElement" [k!"PackageableElement", k!"Identifiable", k!"MultilanguageReferrable", k!"Referrable", k!"ARObject"]
    .nil))
  -- M2/AUTOSARTemplates/SWComponentTemplate/PortInterface/__init__.py:184
  k!"ParameterInterface" [k!"ParameterInterface", k!"DataInterface", k!"PortInterface", k!"AtpType", k!"AtpClassifier", k!"PackageableElement", k!"Identifiable", k!"MultilanguageReferrable", k!"Referrable", k!"ARObject"]
  (.node (.node .nil
    -- M2/AUTOSARTemplates/SystemTemplate/Fibex/FibexCore/CoreTopology.py:749
    k!"PncGatewayTypeEnum" [k!"PncGatewayTypeEnum", k!"AREnum", k!"ARLiteral", k!"ARType"]
    .nil)
   -- M2/AUTOSARTemplates/SWComponentTemplate/ApplicationAttributes/__init__.py:69
   k!"ProcessingKindEnum" [k!"ProcessingKindEnum", k!"AREnum", k!"ARLiteral", k!"ARType"]
   (.node .nil
    -- M2/AUTOSARTemplates/CommonStructure/MeasurementCalibrationSupport/RptSupport/__init__.py:105
    k!"RptPreparationEnum" [k!"RptPreparationEnum", k!"AREnum", k!"ARLiteral", k!"ARType"]
    .nil)))
 -- M2/AUTOSARTemplates/CommonStructure/Constants/__init__.py:1124
 k!"RuleBasedValueCont" [k!"RuleBasedValueCont", k!"ARObject"]
 (.node (.node (.node .nil
    -- M2/AUTOSARTemplates/SystemTemplate/Fibex/Fibex4Lin/LinCommunication.py:95
    k!"ScheduleTableEntry" [k!"ScheduleTableEntry", k!"ARObject"]
    .nil)
   -- M2/MSR/DataDictionary/Axis.py:7
   k!"SwGenericAxisParam" [k!"SwGenericAxisParam", k!"ARObject"]
   (.node .nil
    -- M2/AUTOSARTemplates/GenericStructure/VariantHandling/__init__.py:209
    k!"SwSystemconstValue" [k!"SwSystemconstValue", k!"ARObject"]
    .nil))
  -- M2/MSR/DataDictionary/DataDefProperties.py:169
  k!"SwVariableRefProxy" [k!"SwVariableRefProxy", k!"ARObject"]
  (.node (.node .nil
    -- M2/AUTOSARTemplates/SWComponentTemplate/SwcInternalBehavior/RTEEvents.py:237
    k!"SwcModeSwitchEvent" [k!"SwcModeSwitchEvent", k!"RTEEvent", k!"AtpStructureElement", k!"AtpBlueprintable", k!"PackageableElement", k!"AbstractEvent", k!"Identifiable", k!"MultilanguageReferrable", k!"Referrable", k!"ARObject"]
    .nil)
   -- M2/AUTOSARTemplates/CommonStructure/Timing/TimingCondition/TimingModeInstance.py:5
   k!"TimingModeInstance" [k!"TimingModeInstance", k!"ARObject"]
   (.node .nil
    -- M2/AUTOSARTemplates/CommonStructure/Constants/__init__.py:26
    k!"ValueSpecification" [k!"ValueSpecification", k!"ARObject"]
    .nil))))

-- M2/AUTOSARTemplates/CommonStructure/ModeDeclaration.py:195
def classTable55 : Bst (List Key) :=
 .node classTable53 k!"ModeRequestTypeMap" [k!"ModeRequestTypeMap", k!"ARObject"] classTable54

def classTable56 : Bst (List Key) :=
 (.node (.node (.node (.node (.node .nil
     -- M2/AUTOSARTemplates/SWComponentTemplate/SwcInternalBehavior/AccessCount.py:39
     k!"AbstractAccessPoint" [k!"AbstractAccessPoint", k!"AtpStructureElement", k!"AtpBlueprintable", k!"PackageableElement", k!"Identifiable", k!"MultilanguageReferrable", k!"Referrable", k!"ARObject"]
     .nil)
    -- M2/AUTOSARTemplates/CommonStructure/FlatMap.py:218
    k!"AliasNameAssignment" [k!"AliasNameAssignment", k!"ARObject"]
    .nil)
   -- M2/AUTOSARTemplates/SWComponentTemplate/Datatype/Datatypes.py:45
   k!"ApplicationDataType" [k!"ApplicationDataType", k!"AutosarDataType", k!"AtpType", k!"AtpClassifier", k!"PackageableElement", k!"Identifiable", k!"MultilanguageReferrable", k!"Referrable", k!"ARObject"]
   (.node .nil
    -- M2/AUTOSARTemplates/SystemTemplate/Fibex/Fibex4Ethernet/ServiceInstances.py:1125
    k!"ApplicationEndpoint" [k!"ApplicationEndpoint", k!"Identifiable", k!"MultilanguageReferrable", k!"Referrable", k!"ARObject"]
    .nil))
  -- M2/AUTOSARTemplates/CommonStructure/ImplementationDataTypes.py:326
  k!"ArrayImplPolicyEnum" [k!"ArrayImplPolicyEnum", k!"AREnum", k!"ARLiteral", k!"ARType"]
  (.node (.node .nil
    -- M2/AUTOSARTemplates/SWComponentTemplate/Composition/__init__.py:84
    k!"AssemblySwConnector" [k!"AssemblySwConnector", k!"SwConnector", k!"AtpStructureElement", k!"AtpBlueprintable", k!"PackageableElement", k!"Identifiable", k!"MultilanguageReferrable", k!"Referrable", k!"ARObject"]
    .nil)
   -- M2/AUTOSARTemplates/GenericStructure/AbstractStructure.py:295
   k!"AtpBlueprintMapping" [k!"AtpBlueprintMapping", k!"ARObject"]
   (.node .nil
    -- M2/AUTOSARTemplates/GenericStructure/AbstractStructure.py:250
    k!"AtpStructureElement" [k!"AtpStructureElement", k!"AtpBlueprintable", k!"PackageableElement", k!"Identifiable", k!"MultilanguageReferrable", k!"Referrable", k!"ARObject"]
    .nil)))
 -- M2/AUTOSARTemplates/SWComponentTemplate/SwcInternalBehavior/InstanceRefsUsage.py:416
 k!"AutosarParameterRef" [k!"AutosarParameterRef", k!"ARObject"]
 (.node (.node (.node .nil
    -- M2/AUTOSARTemplates/CommonStructure/StandardizationTemplate/BlueprintMapping/BlueprintMappingSet.py:5
    k!"BlueprintMappingSet" [k!"BlueprintMappingSet", k!"ARObject"]
    .nil)
   -- M2/AUTOSARTemplates/BswModuleTemplate/BswInterfaces.py:70
   k!"BswExecutionContext" [k!"BswExecutionContext", k!"AREnum", k!"ARLiteral", k!"ARType"]
   (.node .nil
    -- M2/AUTOSARTemplates/BswModuleTemplate/BswBehavior/__init__.py:2334
    k!"BswInternalBehavior" [k!"BswInternalBehavior", k!"InternalBehavior", k!"AtpStructureElement", k!"AtpBlueprintable", k!"PackageableElement", k!"Identifiable", k!"MultilanguageReferrable", k!"Referrable", k!"ARObject"]
    .nil))
  -- M2/AUTOSARTemplates/BswModuleTemplate/BswBehavior/__init__.py:1476
  k!"BswModeSenderPolicy" [k!"BswModeSenderPolicy", k!"ARObject"]
  (.node (.node .nil
    -- M2/AUTOSARTemplates/BswModuleTemplate/BswInterfaces.py:129
    k!"BswModuleDependency" [k!"BswModuleDependency", k!"Identifiable", k!"MultilanguageReferrable", k!"Referrable", k!"ARObject"]
    .nil)
   -- M2/MSR/AsamHdo/ComputationMethod.py:218
   k!"CompuRationalCoeffs" [k!"CompuRationalCoeffs", k!"ARObject"]
   (.node .nil
    -- M2/AUTOSARTemplates/SystemTemplate/Fibex/Fibex4Ethernet/EthernetTopology.py:246
    k!"CouplingPortDetails" [k!"CouplingPortDetails", k!"ARObject"]
    .nil))))

def classTable57 : Bst (List Key) :=
 (.node (.node (.node (.node .nil
    -- M2/AUTOSARTemplates/SystemTemplate/Fibex/Fibex4Multiplatform.py:97
    k!"DefaultValueElement" [k!"DefaultValueElement", k!"ARObject"]
    .nil)
   -- M2/AUTOSARTemplates/CommonStructure/Implementation.py:21
   k!"DependencyUsageEnum" [k!"DependencyUsageEnum", k!"AREnum", k!"ARLiteral", k!"ARType"]
   (.node .nil
    -- M2/AUTOSARTemplates/GenericStructure/GeneralTemplateClasses/PrimitiveTypes.py:440
    k!"DisplayFormatString" [k!"DisplayFormatString", k!"ARLiteral", k!"ARType"]
    .nil))
  -- M2/AUTOSARTemplates/ECUCParameterDefTemplate.py:1878
  k!"EcucAddInfoParamDef" [k!"EcucAddInfoParamDef", k!"EcucParameterDef", k!"EcucCommonAttributes", k!"EcucDefinitionElement", k!"Identifiable", k!"MultilanguageReferrable", k!"Referrable", k!"ARObject"]
  (.node (.node .nil
    -- M2/AUTOSARTemplates/ECUCParameterDefTemplate.py:905
    k!"EcucBooleanParamDef" [k!"EcucBooleanParamDef", k!"EcucParameterDef", k!"EcucCommonAttributes", k!"EcucDefinitionElement", k!"Identifiable", k!"MultilanguageReferrable", k!"Referrable", k!"ARObject"]
    .nil)
   -- M2/AUTOSARTemplates/ECUCParameterDefTemplate.py:1360
   k!"EcucFunctionNameDef" [k!"EcucFunctionNameDef", k!"EcucAbstractStringParamDef", k!"EcucParameterDef", k!"EcucCommonAttributes", k!"EcucDefinitionElement", k!"Identifiable", k!"MultilanguageReferrable", k!"Referrable", k!"ARObject"]
   (.node .nil
    -- M2/AUTOSARTemplates/ECUCParameterDefTemplate.py:1374
    k!"EcucIntegerParamDef" [k!"EcucIntegerParamDef", k!"EcucParameterDef", k!"EcucCommonAttributes", k!"EcucDefinitionElement", k!"Identifiable", k!"MultilanguageReferrable", k!"Referrable", k!"ARObject"]
    .nil)))
 -- M2/AUTOSARTemplates/ECUCParameterDefTemplate.py:2179
 k!"EcucLinkerSymbolDef" [k!"EcucLinkerSymbolDef", k!"EcucAbstractStringParamDef", k!"EcucParameterDef", k!"EcucCommonAttributes", k!"EcucDefinitionElement", k!"Identifiable", k!"MultilanguageReferrable", k!"Referrable", k!"ARObject"]
 (.node (.node (.node .nil
    -- M2/AUTOSARTemplates/ECUCParameterDefTemplate.py:2295
    k!"EcucQueryExpression" [k!"EcucQueryExpression", k!"ARObject"]
    .nil)
   -- M2/AUTOSARTemplates/ECUCParameterDefTemplate.py:1124
   k!"EcucUriReferenceDef" [k!"EcucUriReferenceDef", k!"EcucAbstractInternalReferenceDef", k!"EcucAbstractReferenceDef", k!"EcucCommonAttributes", k!"EcucDefinitionElement", k!"Identifiable", k!"MultilanguageReferrable", k!"Referrable", k!"ARObject"]
   (.node .nil
    -- M2/AUTOSARTemplates/ECUCDescriptionTemplate.py:19
    k!"EcucValueCollection" [k!"EcucValueCollection", k!"ARElement", k!"PackageableElement", k!"Identifiable", k!"MultilanguageReferrable", k!"Referrable", k!"ARObject"]
    .nil))
  -- M2/AUTOSARTemplates/SWComponentTemplate/EndToEndProtection.py:15
  k!"EndToEndDescription" [k!"EndToEndDescription", k!"ARObject"]
  (.node (.node .nil
    -- M2/AUTOSARTemplates/EcuResourceTemplate/__init__.py:17
    k!"HwDescriptionEntity" [k!"HwDescriptionEntity", k!"Referrable", k!"ARObject"]
    .nil)
   -- M2/AUTOSARTemplates/EcuResourceTemplate/__init__.py:362
   k!"HwPinGroupConnector" [k!"HwPinGroupConnector", k!"Describable", k!"ARObject"]
   (.node .nil
    -- M2/AUTOSARTemplates/CommonStructure/Implementation.py:85
    k!"ImplementationProps" [k!"ImplementationProps", k!"Referrable", k!"ARObject"]
    .nil))))

-- M2/AUTOSARTemplates/SystemTemplate/Fibex/FibexCore/CoreTopology.py:58
def classTable58 : Bst (List Key) :=
 .node classTable56 k!"CycleRepetitionType" [k!"CycleRepetitionType", k!"AREnum", k!"ARLiteral", k!"ARType"] classTable57

-- M2/AUTOSARTemplates/CommonStructure/ResourceConsumption/HeapUsage.py:318
def classTable59 : Bst (List Key) :=
 .node classTable55 k!"WorstCaseHeapUsage" [k!"WorstCaseHeapUsage", k!"HeapUsage", k!"Identifiable", k!"MultilanguageReferrable", k!"Referrable", k!"ARObject"] classTable58

-- M2/MSR/Documentation/TextModel/BlockElements/__init__.py:22
def classTable60 : Bst (List Key) :=
 .node classTable52 k!"DocumentationBlock" [k!"DocumentationBlock", k!"ARObject"] classTable59

-- M2/AUTOSARTemplates/BswModuleTemplate/BswBehavior/__init__.py:312
def classTable61 : Bst (List Key) :=
 .node classTable45 k!"BswVariableAccess" [k!"BswVariableAccess", k!"Referrable", k!"ARObject"] classTable60

-- M2/AUTOSARTemplates/SWComponentTemplate/SwcInternalBehavior/AccessCount.py:165
def classTable62 : Bst (List Key) :=
 .node classTable30 k!"AccessCountSet" [k!"AccessCountSet", k!"ARObject"] classTable61

def classTable63 : Bst (List Key) :=
 (.node (.node (.node (.node (.node .nil
     -- M2/AUTOSARTemplates/SystemTemplate/DataMapping.py:234
     k!"IndexedArrayElement" [k!"IndexedArrayElement", k!"ARObject"]
     .nil)
    -- M2/AUTOSARTemplates/CommonStructure/ServiceNeeds.py:3435
    k!"J1939DcmDm19Support" [k!"J1939DcmDm19Support", k!"ServiceNeeds", k!"Identifiable", k!"MultilanguageReferrable", k!"Referrable", k!"ARObject"]
    .nil)
   -- M2/AUTOSARTemplates/CommonStructure/MeasurementCalibrationSupport/__init__.py:288
   k!"McDataAccessDetails" [k!"McDataAccessDetails", k!"ARObject"]
   (.node .nil
    -- M2/AUTOSARTemplates/SWComponentTemplate/PortInterface/__init__.py:741
    k!"ModeSwitchInterface" [k!"ModeSwitchInterface", k!"PortInterface", k!"AtpType", k!"AtpClassifier", k!"PackageableElement", k!"Identifiable", k!"MultilanguageReferrable", k!"Referrable", k!"ARObject"]
    .nil))
  -- M2/AUTOSARTemplates/CommonStructure/ServiceNeeds.py:3548
  k!"ObdInfoServiceNeeds" [k!"ObdInfoServiceNeeds", k!"DiagnosticCapabilityElement", k!"ServiceNeeds", k!"Identifiable", k!"MultilanguageReferrable", k!"Referrable", k!"ARObject"]
  (.node (.node .nil
    -- M2/AUTOSARTemplates/GenericStructure/GeneralTemplateClasses/PrimitiveTypes.py:498
    k!"PrimitiveIdentifier" [k!"PrimitiveIdentifier", k!"ARLiteral", k!"ARType"]
    .nil)
   -- M2/AUTOSARTemplates/SWComponentTemplate/Communication.py:537
   k!"QueuedSenderComSpec" [k!"QueuedSenderComSpec", k!"SenderComSpec", k!"PPortComSpec", k!"ARObject"]
   (.node .nil
    -- M2/AUTOSARTemplates/CommonStructure/InternalBehavior.py:17
    k!"ReentrancyLevelEnum" [k!"ReentrancyLevelEnum", k!"AREnum", k!"ARLiteral", k!"ARType"]
    .nil)))
 -- M2/AUTOSARTemplates/CommonStructure/ResourceConsumption/__init__.py:218
 k!"ResourceConsumption" [k!"ResourceConsumption", k!"Identifiable", k!"MultilanguageReferrable", k!"Referrable", k!"ARObject"]
 (.node (.node (.node .nil
    -- M2/AUTOSARTemplates/GenericStructure/GeneralTemplateClasses/PrimitiveTypes.py:891
    k!"RevisionLabelString" [k!"RevisionLabelString", k!"ARLiteral", k!"ARType"]
    .nil)
   -- M2/AUTOSARTemplates/CommonStructure/MeasurementCalibrationSupport/RptSupport/__init__.py:641
   k!"RptExecutableEntity" [k!"RptExecutableEntity", k!"Identifiable", k!"MultilanguageReferrable", k!"Referrable", k!"ARObject"]
   (.node .nil
    -- M2/AUTOSARTemplates/CommonStructure/MeasurementCalibrationSupport/RptSupport/__init__.py:138
    k!"RptExecutionContext" [k!"RptExecutionContext", k!"Identifiable", k!"MultilanguageReferrable", k!"Referrable", k!"ARObject"]
    .nil))
  -- M2/AUTOSARTemplates/SWComponentTemplate/RPTScenario.py:42
  k!"RptServicePointEnum" [k!"RptServicePointEnum", k!"AREnum", k!"ARLiteral", k!"ARType"]
  (.node (.node .nil
    -- M2/AUTOSARTemplates/SWComponentTemplate/ImplicitCommunicationBehavior/__init__.py:106
    k!"RunnableEntityGroup" [k!"RunnableEntityGroup", k!"AtpStructureElement", k!"AtpBlueprintable", k!"PackageableElement", k!"Identifiable", k!"MultilanguageReferrable", k!"Referrable", k!"ARObject"]
    .nil)
   -- M2/AUTOSARTemplates/CommonStructure/ServiceNeeds.py:3989
   k!"ServiceProviderEnum" [k!"ServiceProviderEnum", k!"AREnum", k!"ARLiteral", k!"ARType"]
   (.node .nil
    -- M2/MSR/DataDictionary/DataDefProperties.py:116
    k!"SwBitRepresentation" [k!"SwBitRepresentation", k!"ARObject"]
    .nil))))

def classTable64 : Bst (List Key) :=
 (.node (.node (.node (.node (.node .nil
     -- M2/AUTOSARTemplates/SWComponentTemplate/SwcInternalBehavior/__init__.py:772
     k!"SwcInternalBehavior" [k!"SwcInternalBehavior", k!"InternalBehavior", k!"AtpStructureElement", k!"AtpBlueprintable", k!"PackageableElement", k!"Identifiable", k!"MultilanguageReferrable", k!"Referrable", k!"ARObject"]
     .nil)
    -- M2/AUTOSARTemplates/SystemTemplate/Fibex/Fibex4Ethernet/NetworkEndpoint.py:350
    k!"TimeSynchronization" [k!"TimeSynchronization", k!"ARObject"]
    .nil)
   -- M2/AUTOSARTemplates/CommonStructure/ServiceNeeds.py:4510
   k!"V2xDataManagerNeeds" [k!"V2xDataManagerNeeds", k!"ServiceNeeds", k!"Identifiable", k!"MultilanguageReferrable", k!"Referrable", k!"ARObject"]
   (.node .nil
    -- M2/AUTOSARTemplates/SWComponentTemplate/SwcInternalBehavior/VariantHandling.py:10
    k!"VariationPointProxy" [k!"VariationPointProxy", k!"Identifiable", k!"MultilanguageReferrable", k!"Referrable", k!"ARObject"]
    .nil))
  -- M2/AUTOSARTemplates/GenericStructure/GeneralTemplateClasses/PrimitiveTypes.py:1373
  k!"VerbatimStringPlain" [k!"VerbatimStringPlain", k!"ARLiteral", k!"ARType"]
  (.node (.node .nil
    -- M2/AUTOSARTemplates/CommonStructure/ResourceConsumption/StackUsage.py:348
    k!"WorstCaseStackUsage" [k!"WorstCaseStackUsage", k!"StackUsage", k!"Identifiable", k!"MultilanguageReferrable", k!"Referrable", k!"ARObject"]
    .nil)
   -- M2/AUTOSARTemplates/AbstractPlatform/ApplicationInterface.py:19
   k!"ApplicationInterface" [k!"ApplicationInterface", k!"PortInterface", k!"AtpType", k!"AtpClassifier", k!"PackageableElement", k!"Identifiable", k!"MultilanguageReferrable", k!"Referrable", k!"ARObject"]
   (.node .nil
    -- M2/AUTOSARTemplates/SWComponentTemplate/Datatype/DataPrototypes.py:70
    k!"AutosarDataPrototype" [k!"AutosarDataPrototype", k!"DataPrototype", k!"AtpPrototype", k!"AtpBlueprintable", k!"PackageableElement", k!"Identifiable", k!"MultilanguageReferrable", k!"Referrable", k!"ARObject"]
    .nil)))
 -- M2/AUTOSARTemplates/BswModuleTemplate/BswBehavior/__init__.py:1339
 k!"BswDataReceivedEvent" [k!"BswDataReceivedEvent", k!"BswScheduleEvent", k!"BswEvent", k!"AbstractEvent", k!"Identifiable", k!"MultilanguageReferrable", k!"Referrable", k!"ARObject"]
 (.node (.node (.node .nil
    -- M2/AUTOSARTemplates/BswModuleTemplate/BswInterfaces.py:580
    k!"BswEntryRelationship" [k!"BswEntryRelationship", k!"ARObject"]
    .nil)
   -- M2/AUTOSARTemplates/BswModuleTemplate/BswBehavior/__init__.py:754
   k!"BswInterruptCategory" [k!"BswInterruptCategory", k!"AREnum", k!"ARLiteral", k!"ARType"]
   (.node .nil
    -- M2/AUTOSARTemplates/BswModuleTemplate/BswOverview/__init__.py:19
    k!"BswModuleDescription" [k!"BswModuleDescription", k!"AtpStructureElement", k!"AtpBlueprintable", k!"PackageableElement", k!"Identifiable", k!"MultilanguageReferrable", k!"Referrable", k!"ARObject"]
    .nil))
  -- M2/AUTOSARTemplates/BswModuleTemplate/BswBehavior/__init__.py:734
  k!"BswSchedulableEntity" [k!"BswSchedulableEntity", k!"BswModuleEntity", k!"ExecutableEntity", k!"Identifiable", k!"MultilanguageReferrable", k!"Referrable", k!"ARObject"]
  (.node (.node .nil
    -- M2/AUTOSARTemplates/BswModuleTemplate/BswBehavior/__init__.py:2187
    k!"BswServiceDependency" [k!"BswServiceDependency", k!"ServiceDependency", k!"ARObject"]
    .nil)
   -- M2/AUTOSARTemplates/SWComponentTemplate/NvBlockComponent.py:225
   k!"BulkNvDataDescriptor" [k!"BulkNvDataDescriptor", k!"AtpStructureElement", k!"AtpBlueprintable", k!"PackageableElement", k!"Identifiable", k!"MultilanguageReferrable", k!"Referrable", k!"ARObject"]
   (.node .nil
    -- M2/AUTOSARTemplates/SystemTemplate/NetworkManagement.py:30
    k!"CanNmClusterCoupling" [k!"CanNmClusterCoupling", k!"NmClusterCoupling", k!"ARObject"]
    .nil))))

-- M2/MSR/DataDictionary/RecordLayout.py:162
def classTable65 : Bst (List Key) :=
 .node classTable63 k!"SwRecordLayoutGroup" [k!"SwRecordLayoutGroup", k!"ARObject"] classTable64

def classTable66 : Bst (List Key) :=
 (.node (.node (.node (.node (.node .nil
     -- M2/AUTOSARTemplates/SystemTemplate/Fibex/FibexCore/CoreTopology.py:389
     k!"CommunicationCluster" [k!"CommunicationCluster", k!"FibexElement", k!"PackageableElement", k!"Identifiable", k!"MultilanguageReferrable", k!"Referrable", k!"ARObject"]
     .nil)
    -- M2/AUTOSARTemplates/AdaptivePlatform/PlatformModuleDeployment/CryptoDeployment/CryptoKeySlotContent.py:9
    k!"CryptoKeySlotContent" [k!"CryptoKeySlotContent", k!"Identifiable", k!"MultilanguageReferrable", k!"Referrable", k!"ARObject"]
    .nil)
   -- M2/AUTOSARTemplates/SystemTemplate/SecureCommunication.py:10
   k!"CryptoServiceMapping" [k!"CryptoServiceMapping", k!"Identifiable", k!"MultilanguageReferrable", k!"Referrable", k!"ARObject"]
   (.node .nil
    -- M2/AUTOSARTemplates/SWComponentTemplate/PortInterface/__init__.py:993
    k!"DataPrototypeMapping" [k!"DataPrototypeMapping", k!"ARObject"]
    .nil))
  -- M2/AUTOSARTemplates/CommonStructure/Implementation.py:370
  k!"DependencyOnArtifact" [k!"DependencyOnArtifact", k!"Identifiable", k!"MultilanguageReferrable", k!"Referrable", k!"ARObject"]
  (.node (.node .nil
    -- M2/AUTOSARTemplates/SystemTemplate/DiagnosticConnection.py:9
    k!"DiagnosticConnection" [k!"DiagnosticConnection", k!"ARElement", k!"PackageableElement", k!"Identifiable", k!"MultilanguageReferrable", k!"Referrable", k!"ARObject"]
    .nil)
   -- M2/AUTOSARTemplates/CommonStructure/ServiceNeeds.py:1690
   k!"DiagnosticEventNeeds" [k!"DiagnosticEventNeeds", k!"DiagnosticCapabilityElement", k!"ServiceNeeds", k!"Identifiable", k!"MultilanguageReferrable", k!"Referrable", k!"ARObject"]
   (.node .nil
    -- M2/AUTOSARTemplates/CommonStructure/ServiceNeeds.py:1085
    k!"DiagnosticValueNeeds" [k!"DiagnosticValueNeeds", k!"DiagnosticCapabilityElement", k!"ServiceNeeds", k!"Identifiable", k!"MultilanguageReferrable", k!"Referrable", k!"ARObject"]
    .nil)))
 -- M2/AUTOSARTemplates/GenericStructure/DocumentationOnM1/__init__.py:81
 k!"DocumentationContext" [k!"DocumentationContext", k!"MultilanguageReferrable", k!"Referrable", k!"ARObject"]
 (.node (.node (.node .nil
    -- M2/AUTOSARTemplates/CommonStructure/ServiceNeeds.py:2049
    k!"EcuStateMgrUserNeeds" [k!"EcuStateMgrUserNeeds", k!"ServiceNeeds", k!"Identifiable", k!"MultilanguageReferrable", k!"Referrable", k!"ARObject"]
    .nil)
   -- M2/AUTOSARTemplates/ECUCParameterDefTemplate.py:629
   k!"EcucCommonAttributes" [k!"EcucCommonAttributes", k!"EcucDefinitionElement", k!"Identifiable", k!"MultilanguageReferrable", k!"Referrable", k!"ARObject"]
   (.node .nil
    -- M2/AUTOSARTemplates/ECUCParameterDefTemplate.py:1891
    k!"EcucConditionFormula" [k!"EcucConditionFormula", k!"ARObject"]
    .nil))
  -- M2/AUTOSARTemplates/SWComponentTemplate/ApplicationAttributes/__init__.py:40
  k!"FilterDebouncingEnum" [k!"FilterDebouncingEnum", k!"AREnum", k!"ARLiteral", k!"ARType"]
  (.node (.node .nil
    -- M2/AUTOSARTemplates/SystemTemplate/Fibex/Fibex4Ethernet/EthernetFrame.py:27
    k!"GenericEthernetFrame" [k!"GenericEthernetFrame", k!"AbstractEthernetFrame", k!"Frame", k!"FibexElement", k!"PackageableElement", k!"Identifiable", k!"MultilanguageReferrable", k!"Referrable", k!"ARObject"]
    .nil)
   -- M2/AUTOSARTemplates/SWComponentTemplate/Communication.py:1789
   k!"HandleOutOfRangeEnum" [k!"HandleOutOfRangeEnum", k!"AREnum", k!"ARLiteral", k!"ARType"]
   (.node .nil
    -- M2/AUTOSARTemplates/SystemTemplate/Fibex/FibexCore/CoreCommunication.py:837
    k!"ISignalToIPduMapping" [k!"ISignalToIPduMapping", k!"Identifiable", k!"MultilanguageReferrable", k!"Referrable", k!"ARObject"]
    .nil))))

def classTable67 : Bst (List Key) :=
 (.node (.node (.node (.node .nil
    -- M2/AUTOSARTemplates/SystemTemplate/Fibex/Fibex4Ethernet/EthernetTopology.py:811
    k!"InitialSdDelayConfig" [k!"InitialSdDelayConfig", k!"ARObject"]
    .nil)
   -- M2/AUTOSARTemplates/CommonStructure/MeasurementCalibrationSupport/RptSupport/__init__.py:342
   k!"McFunctionDataRefSet" [k!"McFunctionDataRefSet", k!"ARObject"]
   (.node .nil
    -- M2/AUTOSARTemplates/SWComponentTemplate/RPTScenario.py:29
    k!"ModeAccessPointIdent" [k!"ModeAccessPointIdent", k!"IdentCaption", k!"AtpStructureElement", k!"AtpBlueprintable", k!"PackageableElement", k!"Identifiable", k!"MultilanguageReferrable", k!"Referrable", k!"ARObject"]
    .nil))
  -- M2/AUTOSARTemplates/CommonStructure/ModeDeclaration.py:266
  k!"ModeDeclarationGroup" [k!"ModeDeclarationGroup", k!"AtpType", k!"AtpClassifier", k!"PackageableElement", k!"Identifiable", k!"MultilanguageReferrable", k!"Referrable", k!"ARObject"]
  (.node (.node .nil
    -- M2/AUTOSARTemplates/CommonStructure/Timing/TimingCondition/ModeInBswInstanceRef.py:4
    k!"ModeInBswInstanceRef" [k!"ModeInBswInstanceRef", k!"RefType", k!"ARObject"]
    .nil)
   -- M2/AUTOSARTemplates/CommonStructure/Timing/TimingCondition/ModeInSwcInstanceRef.py:4
   k!"ModeInSwcInstanceRef" [k!"ModeInSwcInstanceRef", k!"RefType", k!"ARObject"]
   (.node .nil
    -- M2/AUTOSARTemplates/SWComponentTemplate/PortInterface/__init__.py:1178
    k!"ModeInterfaceMapping" [k!"ModeInterfaceMapping", k!"PortInterfaceMapping", k!"AtpBlueprintable", k!"PackageableElement", k!"Identifiable", k!"MultilanguageReferrable", k!"Referrable", k!"ARObject"]
    .nil)))
 -- M2/AUTOSARTemplates/SWComponentTemplate/SwcInternalBehavior/RTEEvents.py:517
 k!"ModeSwitchedAckEvent" [k!"ModeSwitchedAckEvent", k!"RTEEvent", k!"AtpStructureElement", k!"AtpBlueprintable", k!"PackageableElement", k!"AbstractEvent", k!"Identifiable", k!"MultilanguageReferrable", k!"Referrable", k!"ARObject"]
 (.node (.node (.node .nil
    -- M2/AUTOSARTemplates/GenericStructure/GeneralTemplateClasses/MultidimensionalTime.py:11
    k!"MultidimensionalTime" [k!"MultidimensionalTime", k!"ARObject"]
    .nil)
   -- M2/AUTOSARTemplates/SWComponentTemplate/ApplicationAttributes/__init__.py:465
   k!"NvDataPortAnnotation" [k!"NvDataPortAnnotation", k!"GeneralAnnotation", k!"ARObject"]
   (.node .nil
    -- M2/AUTOSARTemplates/CommonStructure/ServiceNeeds.py:3794
    k!"ObdRatioServiceNeeds" [k!"ObdRatioServiceNeeds", k!"DiagnosticCapabilityElement", k!"ServiceNeeds", k!"Identifiable", k!"MultilanguageReferrable", k!"Referrable", k!"ARObject"]
    .nil))
  -- M2/AUTOSARTemplates/SWComponentTemplate/PortInterface/__init__.py:792
  k!"PortInterfaceMapping" [k!"PortInterfaceMapping", k!"AtpBlueprintable", k!"PackageableElement", k!"Identifiable", k!"MultilanguageReferrable", k!"Referrable", k!"ARObject"]
  (.node (.node .nil
    -- M2/AUTOSARTemplates/SystemTemplate/Fibex/Fibex4Ethernet/EthernetTopology.py:774
    k!"RequestResponseDelay" [k!"RequestResponseDelay", k!"ARObject"]
    .nil)
   -- M2/AUTOSARTemplates/SWComponentTemplate/Composition/__init__.py:19
   k!"SwComponentPrototype" [k!"SwComponentPrototype", k!"AtpPrototype", k!"AtpBlueprintable", k!"PackageableElement", k!"Identifiable", k!"MultilanguageReferrable", k!"Referrable", k!"ARObject"]
   (.node .nil
    -- M2/MSR/DataDictionary/DataDefProperties.py:275
    k!"SwDataDependencyArgs" [k!"SwDataDependencyArgs", k!"ARObject"]
    .nil))))

-- M2/AUTOSARTemplates/CommonStructure/ServiceNeeds.py:3385
def classTable68 : Bst (List Key) :=
 .node classTable66 k!"IndicatorStatusNeeds" [k!"IndicatorStatusNeeds", k!"ServiceNeeds", k!"Identifiable", k!"MultilanguageReferrable", k!"Referrable", k!"ARObject"] classTable67

-- M2/AUTOSARTemplates/SystemTemplate/__init__.py:78
def classTable69 : Bst (List Key) :=
 .node classTable65 k!"ComManagementMapping" [k!"ComManagementMapping", k!"Identifiable", k!"MultilanguageReferrable", k!"Referrable", k!"ARObject"] classTable68

def classTable70 : Bst (List Key) :=
 (.node (.node (.node (.node (.node .nil
     -- M2/AUTOSARTemplates/SWComponentTemplate/SwcInternalBehavior/ServiceMapping.py:111
     k!"SwcServiceDependency" [k!"SwcServiceDependency", k!"Identifiable", k!"MultilanguageReferrable", k!"Referrable", k!"ServiceDependency", k!"ARObject"]
     .nil)
    -- M2/AUTOSARTemplates/SystemTemplate/Fibex/FibexCore/CoreCommunication.py:801
    k!"TransferPropertyEnum" [k!"TransferPropertyEnum", k!"AREnum", k!"ARLiteral", k!"ARType"]
    .nil)
   -- M2/AUTOSARTemplates/SystemTemplate/Transformer/__init__.py:766
   k!"TransformerClassEnum" [k!"TransformerClassEnum", k!"AREnum", k!"ARLiteral", k!"ARType"]
   (.node .nil
    -- M2/AUTOSARTemplates/SystemTemplate/NetworkManagement.py:1366
    k!"UdpNmClusterCoupling" [k!"UdpNmClusterCoupling", k!"NmClusterCoupling", k!"ARObject"]
    .nil))
  -- M2/AUTOSARTemplates/SystemTemplate/Fibex/Fibex4Ethernet/EthernetFrame.py:9
  k!"AbstractEthernetFrame" [k!"AbstractEthernetFrame", k!"Frame", k!"FibexElement", k!"PackageableElement", k!"Identifiable", k!"MultilanguageReferrable", k!"Referrable", k!"ARObject"]
  (.node (.node .nil
    -- M2/AUTOSARTemplates/CommonStructure/ResourceConsumption/ExecutionTime/__init__.py:339
    k!"AnalyzedExecutionTime" [k!"AnalyzedExecutionTime", k!"ExecutionTime", k!"Identifiable", k!"MultilanguageReferrable", k!"Referrable", k!"ARObject"]
    .nil)
   -- M2/AUTOSARTemplates/SWComponentTemplate/PortInterface/__init__.py:370
   k!"ArgumentDataPrototype" [k!"ArgumentDataPrototype", k!"AutosarDataPrototype", k!"DataPrototype", k!"AtpPrototype", k!"AtpBlueprintable", k!"PackageableElement", k!"Identifiable", k!"MultilanguageReferrable", k!"Referrable", k!"ARObject"]
   (.node .nil
    -- M2/AUTOSARTemplates/GenericStructure/GeneralTemplateClasses/PrimitiveTypes.py:1146
    k!"ArgumentDirectionEnum" [k!"ArgumentDirectionEnum", k!"AREnum", k!"ARLiteral", k!"ARType"]
    .nil)))
 -- M2/AUTOSARTemplates/SWComponentTemplate/Datatype/Datatypes.py:89
 k!"ArraySizeHandlingEnum" [k!"ArraySizeHandlingEnum", k!"AREnum", k!"ARLiteral", k!"ARType"]
 (.node (.node (.node .nil
    -- M2/AUTOSARTemplates/SWComponentTemplate/Components/__init__.py:506
    k!"AtomicSwComponentType" [k!"AtomicSwComponentType", k!"SwComponentType", k!"AtpType", k!"AtpClassifier", k!"PackageableElement", k!"Identifiable", k!"MultilanguageReferrable", k!"Referrable", k!"ARObject"]
    .nil)
   -- M2/AUTOSARTemplates/BswModuleTemplate/BswBehavior/__init__.py:1618
   k!"BswModeReceiverPolicy" [k!"BswModeReceiverPolicy", k!"ARObject"]
   (.node .nil
    -- M2/AUTOSARTemplates/SWComponentTemplate/PortInterface/__init__.py:654
    k!"ClientServerInterface" [k!"ClientServerInterface", k!"PortInterface", k!"AtpType", k!"AtpClassifier", k!"PackageableElement", k!"Identifiable", k!"MultilanguageReferrable", k!"Referrable", k!"ARObject"]
    .nil))
  -- M2/AUTOSARTemplates/SWComponentTemplate/PortInterface/__init__.py:520
  k!"ClientServerOperation" [k!"ClientServerOperation", k!"AtpStructureElement", k!"AtpBlueprintable", k!"PackageableElement", k!"Identifiable", k!"MultilanguageReferrable", k!"Referrable", k!"ARObject"]
  (.node (.node .nil
    -- M2/MSR/AsamHdo/ComputationMethod.py:105
    k!"CompuConstTextContent" [k!"CompuConstTextContent", k!"CompuConstContent", k!"ARObject"]
    .nil)
   -- M2/AUTOSARTemplates/CommonStructure/Constants/__init__.py:417
   k!"ConstantSpecification" [k!"ConstantSpecification", k!"ARElement", k!"PackageableElement", k!"Identifiable", k!"MultilanguageReferrable", k!"Referrable", k!"ARObject"]
   (.node .nil
    -- M2/AUTOSARTemplates/SystemTemplate/Fibex/Fibex4Ethernet/EthernetTopology.py:172
    k!"CouplingPortScheduler" [k!"CouplingPortScheduler", k!"CouplingPortStructuralElement", k!"Identifiable", k!"MultilanguageReferrable", k!"Referrable", k!"ARObject"]
    .nil))))

def classTable71 : Bst (List Key) :=
 (.node (.node (.node (.node .nil
    -- M2/AUTOSARTemplates/SWComponentTemplate/SwcInternalBehavior/RTEEvents.py:292
    k!"DataReceiveErrorEvent" [k!"DataReceiveErrorEvent", k!"RTEEvent", k!"AtpStructureElement", k!"AtpBlueprintable", k!"PackageableElement", k!"AbstractEvent", k!"Identifiable", k!"MultilanguageReferrable", k!"Referrable", k!"ARObject"]
    .nil)
   -- M2/AUTOSARTemplates/SystemTemplate/Transformer/__init__.py:947
   k!"DataTransformationSet" [k!"DataTransformationSet", k!"ARElement", k!"PackageableElement", k!"Identifiable", k!"MultilanguageReferrable", k!"Referrable", k!"ARObject"]
   (.node .nil
    -- M2/AUTOSARTemplates/SWComponentTemplate/Composition/__init__.py:113
    k!"DelegationSwConnector" [k!"DelegationSwConnector", k!"SwConnector", k!"AtpStructureElement", k!"AtpBlueprintable", k!"PackageableElement", k!"Identifiable", k!"MultilanguageReferrable", k!"Referrable", k!"ARObject"]
    .nil))
  -- M2/AUTOSARTemplates/ECUCDescriptionTemplate.py:138
  k!"EcucAddInfoParamValue" [k!"EcucAddInfoParamValue", k!"EcucParameterValue", k!"EcucIndexableValue", k!"ARObject"]
  (.node (.node .nil
    -- M2/AUTOSARTemplates/ECUCParameterDefTemplate.py:193
    k!"EcucDefinitionElement" [k!"EcucDefinitionElement", k!"Identifiable", k!"MultilanguageReferrable", k!"Referrable", k!"ARObject"]
    .nil)
   -- M2/AUTOSARTemplates/ECUCParameterDefTemplate.py:1979
   k!"EcucDestinationUriDef" [k!"EcucDestinationUriDef", k!"Identifiable", k!"MultilanguageReferrable", k!"Referrable", k!"ARObject"]
   (.node .nil
    -- M2/AUTOSARTemplates/ECUCDescriptionTemplate.py:161
    k!"EcucTextualParamValue" [k!"EcucTextualParamValue", k!"EcucParameterValue", k!"EcucIndexableValue", k!"ARObject"]
    .nil)))
 -- M2/AUTOSARTemplates/SWComponentTemplate/EndToEndProtection.py:499
 k!"EndToEndProtectionSet" [k!"EndToEndProtectionSet", k!"ARElement", k!"PackageableElement", k!"Identifiable", k!"MultilanguageReferrable", k!"Referrable", k!"ARObject"]
 (.node (.node (.node .nil
    -- M2/AUTOSARTemplates/SystemTemplate/Fibex/FibexCore/Timing.py:134
    k!"EventControlledTiming" [k!"EventControlledTiming", k!"Describable", k!"ARObject"]
    .nil)
   -- M2/AUTOSARTemplates/CommonStructure/Timing/TimingConstraint/ExecutionTimeConstraint.py:19
   k!"ExecutionTimeTypeEnum" [k!"ExecutionTimeTypeEnum", k!"AREnum", k!"ARLiteral", k!"ARType"]
   (.node .nil
    -- M2/AUTOSARTemplates/CommonStructure/ResourceConsumption/__init__.py:26
    k!"HardwareConfiguration" [k!"HardwareConfiguration", k!"ARObject"]
    .nil))
  -- M2/AUTOSARTemplates/EcuResourceTemplate/HwAttributeValue.py:84
  k!"HwAttributeLiteralDef" [k!"HwAttributeLiteralDef", k!"Identifiable", k!"MultilanguageReferrable", k!"Referrable", k!"ARObject"]
  (.node (.node .nil
    -- M2/AUTOSARTemplates/SystemTemplate/Fibex/Fibex4Lin/LinCommunication.py:189
    k!"LinConfigurationEntry" [k!"LinConfigurationEntry", k!"ScheduleTableEntry", k!"ARObject"]
    .nil)
   -- M2/AUTOSARTemplates/SystemTemplate/Fibex/Fibex4Lin/LinCommunication.py:28
   k!"LinUnconditionalFrame" [k!"LinUnconditionalFrame", k!"LinFrame", k!"Frame", k!"FibexElement", k!"PackageableElement", k!"Identifiable", k!"MultilanguageReferrable", k!"Referrable", k!"ARObject"]
   (.node .nil
    -- M2/AUTOSARTemplates/CommonStructure/ResourceConsumption/ExecutionTime/__init__.py:425
    k!"MeasuredExecutionTime" [k!"MeasuredExecutionTime", k!"ExecutionTime", k!"Identifiable", k!"MultilanguageReferrable", k!"Referrable", k!"ARObject"]
    .nil))))

-- M2/AUTOSARTemplates/CommonStructure/ServiceNeeds.py:2179
def classTable72 : Bst (List Key) :=
 .node classTable70 k!"CryptoServiceJobNeeds" [k!"CryptoServiceJobNeeds", k!"ServiceNeeds", k!"Identifiable", k!"MultilanguageReferrable", k!"Referrable", k!"ARObject"] classTable71

def classTable73 : Bst (List Key) :=
 (.node (.node (.node (.node (.node .nil
     -- M2/MSR/Documentation/TextModel/MultilanguageData.py:136
     k!"MultiLanguageVerbatim" [k!"MultiLanguageVerbatim", k!"Paginateable", k!"DocumentViewSelectable", k!"ARObject"]
     .nil)
    -- M2/MSR/Documentation/TextModel/MultilanguageData.py:72
    k!"MultilanguageLongName" [k!"MultilanguageLongName", k!"ARObject"]
    .nil)
   -- M2/AUTOSARTemplates/SystemTemplate/NetworkManagement.py:110
   k!"NmCoordinatorRoleEnum" [k!"NmCoordinatorRoleEnum", k!"AREnum", k!"ARLiteral", k!"ARType"]
   (.node .nil
    -- M2/AUTOSARTemplates/SWComponentTemplate/SwcInternalBehavior/RTEEvents.py:331
    k!"OperationInvokedEvent" [k!"OperationInvokedEvent", k!"RTEEvent", k!"AtpStructureElement", k!"AtpBlueprintable", k!"PackageableElement", k!"AbstractEvent", k!"Identifiable", k!"MultilanguageReferrable", k!"Referrable", k!"ARObject"]
    .nil))
  -- M2/AUTOSARTemplates/CommonStructure/ServiceNeeds.py:4411
  k!"PossibleErrorReaction" [k!"PossibleErrorReaction", k!"Identifiable", k!"MultilanguageReferrable", k!"Referrable", k!"ARObject"]
  (.node (.node .nil
    -- M2/AUTOSARTemplates/SWComponentTemplate/Communication.py:1750
    k!"QueuedReceiverComSpec" [k!"QueuedReceiverComSpec", k!"ReceiverComSpec", k!"RPortComSpec", k!"ARObject"]
    .nil)
   -- M2/AUTOSARTemplates/SWComponentTemplate/Communication.py:76
   k!"ReceptionComSpecProps" [k!"ReceptionComSpecProps", k!"ARObject"]
   (.node .nil
    -- M2/AUTOSARTemplates/CommonStructure/ServiceNeeds.py:4144
    k!"SupervisedEntityNeeds" [k!"SupervisedEntityNeeds", k!"ServiceNeeds", k!"Identifiable", k!"MultilanguageReferrable", k!"Referrable", k!"ARObject"]
    .nil)))
 -- M2/MSR/DataDictionary/CalibrationParameter.py:41
 k!"SwCalprmAxisTypeProps" [k!"SwCalprmAxisTypeProps", k!"ARObject"]
 (.node (.node (.node .nil
    -- M2/AUTOSARTemplates/CommonStructure/SwcBswMapping.py:19
    k!"SwcBswRunnableMapping" [k!"SwcBswRunnableMapping", k!"ARObject"]
    .nil)
   -- M2/AUTOSARTemplates/SWComponentTemplate/ApplicationAttributes/__init__.py:551
   k!"TriggerPortAnnotation" [k!"TriggerPortAnnotation", k!"GeneralAnnotation", k!"ARObject"]
   (.node .nil
    -- M2/AUTOSARTemplates/SWComponentTemplate/Datatype/DataPrototypes.py:115
    k!"VariableDataPrototype" [k!"VariableDataPrototype", k!"AutosarDataPrototype", k!"DataPrototype", k!"AtpPrototype", k!"AtpBlueprintable", k!"PackageableElement", k!"Identifiable", k!"MultilanguageReferrable", k!"Referrable", k!"ARObject"]
    .nil))
  -- M2/AUTOSARTemplates/CommonStructure/ImplementationDataTypes.py:346
  k!"ArraySizeSemanticsEnum" [k!"ArraySizeSemanticsEnum", k!"AREnum", k!"ARLiteral", k!"ARType"]
  (.node (.node .nil
    -- M2/AUTOSARTemplates/GenericStructure/GeneralTemplateClasses/PrimitiveTypes.py:479
    k!"BaseTypeEncodingString" [k!"BaseTypeEncodingString", k!"ARLiteral", k!"ARType"]
    .nil)
   -- M2/AUTOSARTemplates/BswModuleTemplate/BswBehavior/__init__.py:1923
   k!"BswDataReceptionPolicy" [k!"BswDataReceptionPolicy", k!"BswApiOptions", k!"ARObject"]
   (.node .nil
    -- M2/AUTOSARTemplates/BswModuleTemplate/BswBehavior/__init__.py:1846
    k!"BswExclusiveAreaPolicy" [k!"BswExclusiveAreaPolicy", k!"BswApiOptions", k!"ARObject"]
    .nil))))

def classTable74 : Bst (List Key) :=
 (.node (.node (.node (.node .nil
    -- M2/MSR/DataDictionary/CalibrationParameter.py:13
    k!"CalprmAxisCategoryEnum" [k!"CalprmAxisCategoryEnum", k!"AREnum", k!"ARLiteral", k!"ARType"]
    .nil)
   -- M2/AUTOSARTemplates/SWComponentTemplate/ApplicationAttributes/__init__.py:278
   k!"ClientServerAnnotation" [k!"ClientServerAnnotation", k!"GeneralAnnotation", k!"ARObject"]
   (.node .nil
    -- M2/AUTOSARTemplates/SystemTemplate/Fibex/FibexCore/CoreTopology.py:978
    k!"CommunicationConnector" [k!"CommunicationConnector", k!"Identifiable", k!"MultilanguageReferrable", k!"Referrable", k!"ARObject"]
    .nil))
  -- M2/AUTOSARTemplates/SystemTemplate/Transformer/__init__.py:1093
  k!"DataPrototypeReference" [k!"DataPrototypeReference", k!"ARObject"]
  (.node (.node .nil
    -- M2/AUTOSARTemplates/SWComponentTemplate/SwcInternalBehavior/RTEEvents.py:121
    k!"DataSendCompletedEvent" [k!"DataSendCompletedEvent", k!"RTEEvent", k!"AtpStructureElement", k!"AtpBlueprintable", k!"PackageableElement", k!"AbstractEvent", k!"Identifiable", k!"MultilanguageReferrable", k!"Referrable", k!"ARObject"]
    .nil)
   -- M2/AUTOSARTemplates/CommonStructure/ServiceNeeds.py:712
   k!"DiagnosticAudienceEnum" [k!"DiagnosticAudienceEnum", k!"AREnum", k!"ARLiteral", k!"ARType"]
   (.node .nil
    -- M2/AUTOSARTemplates/CommonStructure/ServiceNeeds.py:2294
    k!"DiagnosticControlNeeds" [k!"DiagnosticControlNeeds", k!"ServiceNeeds", k!"Identifiable", k!"MultilanguageReferrable", k!"Referrable", k!"ARObject"]
    .nil)))
 -- M2/AUTOSARTemplates/CommonStructure/ServiceNeeds.py:952
 k!"DiagnosticRoutineNeeds" [k!"DiagnosticRoutineNeeds", k!"DiagnosticCapabilityElement", k!"ServiceNeeds", k!"Identifiable", k!"MultilanguageReferrable", k!"Referrable", k!"ARObject"]
 (.node (.node (.node .nil
    -- M2/AUTOSARTemplates/DiagnosticExtract/DiagnosticContribution.py:18
    k!"DiagnosticServiceTable" [k!"DiagnosticServiceTable", k!"DiagnosticCommonElement", k!"ARElement", k!"PackageableElement", k!"Identifiable", k!"MultilanguageReferrable", k!"Referrable", k!"ARObject"]
    .nil)
   -- M2/MSR/Documentation/TextModel/BlockElements/PaginationAndView.py:5
   k!"DocumentViewSelectable" [k!"DocumentViewSelectable", k!"ARObject"]
   (.node .nil
    -- M2/AUTOSARTemplates/SystemTemplate/Fibex/FibexCore/CoreCommunication.py:1831
    k!"DynamicPartAlternative" [k!"DynamicPartAlternative", k!"ARObject"]
    .nil))
  -- M2/AUTOSARTemplates/CommonStructure/Timing/TimingConstraint/ExecutionOrderConstraint.py:38
  k!"EOCExecutableEntityRef" [k!"EOCExecutableEntityRef", k!"EOCExecutableEntityRefAbstract", k!"Identifiable", k!"MultilanguageReferrable", k!"Referrable", k!"ARObject"]
  (.node (.node .nil
    -- M2/AUTOSARTemplates/ECUCParameterDefTemplate.py:1569
    k!"EcucChoiceContainerDef" [k!"EcucChoiceContainerDef", k!"EcucContainerDef", k!"EcucDefinitionElement", k!"Identifiable", k!"MultilanguageReferrable", k!"Referrable", k!"ARObject"]
    .nil)
   -- M2/AUTOSARTemplates/ECUCParameterDefTemplate.py:1055
   k!"EcucChoiceReferenceDef" [k!"EcucChoiceReferenceDef", k!"EcucAbstractInternalReferenceDef", k!"EcucAbstractReferenceDef", k!"EcucCommonAttributes", k!"EcucDefinitionElement", k!"Identifiable", k!"MultilanguageReferrable", k!"Referrable", k!"ARObject"]
   (.node .nil
    -- M2/AUTOSARTemplates/CommonStructure/FlatMap.py:17
    k!"FlatInstanceDescriptor" [k!"FlatInstanceDescriptor", k!"Identifiable", k!"MultilanguageReferrable", k!"Referrable", k!"ARObject"]
    .nil))))

-- M2/AUTOSARTemplates/BswModuleTemplate/BswBehavior/BswSchedulerNamePrefix.py:8
def classTable75 : Bst (List Key) :=
 .node classTable73 k!"BswSchedulerNamePrefix" [k!"BswSchedulerNamePrefix", k!"ARObject"] classTable74

-- M2/AUTOSARTemplates/CommonStructure/ResourceConsumption/ExecutionTime/__init__.py:262
def classTable76 : Bst (List Key) :=
 .node classTable72 k!"MemorySectionLocation" [k!"MemorySectionLocation", k!"ARObject"] classTable75

-- M2/MSR/DataDictionary/DataDefProperties.py:1000
def classTable77 : Bst (List Key) :=
 .node classTable69 k!"SwPointerTargetProps" [k!"SwPointerTargetProps", k!"ARObject"] classTable76

def classTable78 : Bst (List Key) :=
 (.node (.node (.node (.node (.node .nil
     -- M2/AUTOSARTemplates/SystemTemplate/Fibex/FibexCore/CoreTopology.py:363
     k!"FlexrayPhysicalChannel" [k!"FlexrayPhysicalChannel", k!"PhysicalChannel", k!"Identifiable", k!"MultilanguageReferrable", k!"Referrable", k!"ARObject"]
     .nil)
    -- M2/AUTOSARTemplates/CommonStructure/ServiceNeeds.py:3222
    k!"FurtherActionByteNeeds" [k!"FurtherActionByteNeeds", k!"ServiceNeeds", k!"Identifiable", k!"MultilanguageReferrable", k!"Referrable", k!"ARObject"]
    .nil)
   -- M2/AUTOSARTemplates/CommonStructure/ServiceNeeds.py:3242
   k!"GlobalSupervisionNeeds" [k!"GlobalSupervisionNeeds", k!"ServiceNeeds", k!"Identifiable", k!"MultilanguageReferrable", k!"Referrable", k!"ARObject"]
   (.node .nil
    -- M2/AUTOSARTemplates/CommonStructure/ImplementationDataTypes.py:136
    k!"ImplementationDataType" [k!"ImplementationDataType", k!"AbstractImplementationDataType", k!"AutosarDataType", k!"AtpType", k!"AtpClassifier", k!"PackageableElement", k!"Identifiable", k!"MultilanguageReferrable", k!"Referrable", k!"ARObject"]
    .nil))
  -- M2/AUTOSARTemplates/SystemTemplate/Fibex/Fibex4Ethernet/NetworkEndpoint.py:387
  k!"InfrastructureServices" [k!"InfrastructureServices", k!"ARObject"]
  (.node (.node .nil
    -- M2/AUTOSARTemplates/SWComponentTemplate/PortInterface/__init__.py:1218
    k!"ModeDeclarationMapping" [k!"ModeDeclarationMapping", k!"AtpStructureElement", k!"AtpBlueprintable", k!"PackageableElement", k!"Identifiable", k!"MultilanguageReferrable", k!"Referrable", k!"ARObject"]
    .nil)
   -- M2/AUTOSARTemplates/SWComponentTemplate/Communication.py:1162
   k!"ModeSwitchedAckRequest" [k!"ModeSwitchedAckRequest", k!"ARObject"]
   (.node .nil
    -- M2/MSR/Documentation/TextModel/MultilanguageData.py:13
    k!"MultiLanguageParagraph" [k!"MultiLanguageParagraph", k!"Paginateable", k!"DocumentViewSelectable", k!"ARObject"]
    .nil)))
 -- M2/MSR/Documentation/TextModel/MultilanguageData.py:96
 k!"MultiLanguagePlainText" [k!"MultiLanguagePlainText", k!"ARObject"]
 (.node (.node (.node .nil
    -- M2/AUTOSARTemplates/SystemTemplate/Fibex/Fibex4Ethernet/NetworkEndpoint.py:11
    k!"NetworkEndpointAddress" [k!"NetworkEndpointAddress", k!"ARObject"]
    .nil)
   -- M2/AUTOSARTemplates/SWComponentTemplate/Communication.py:550
   k!"NonqueuedSenderComSpec" [k!"NonqueuedSenderComSpec", k!"SenderComSpec", k!"PPortComSpec", k!"ARObject"]
   (.node .nil
    -- M2/AUTOSARTemplates/SWComponentTemplate/Components/__init__.py:692
    k!"NvBlockSwComponentType" [k!"NvBlockSwComponentType", k!"AtomicSwComponentType", k!"SwComponentType", k!"AtpType", k!"AtpClassifier", k!"PackageableElement", k!"Identifiable", k!"MultilanguageReferrable", k!"Referrable", k!"ARObject"]
    .nil))
  -- M2/AUTOSARTemplates/CommonStructure/ServiceNeeds.py:3527
  k!"ObdControlServiceNeeds" [k!"ObdControlServiceNeeds", k!"DiagnosticCapabilityElement", k!"ServiceNeeds", k!"Identifiable", k!"MultilanguageReferrable", k!"Referrable", k!"ARObject"]
  (.node (.node .nil
    -- M2/AUTOSARTemplates/CommonStructure/ServiceNeeds.py:3569
    k!"ObdMonitorServiceNeeds" [k!"ObdMonitorServiceNeeds", k!"DiagnosticCapabilityElement", k!"ServiceNeeds", k!"Identifiable", k!"MultilanguageReferrable", k!"Referrable", k!"ARObject"]
    .nil)
   -- M2/AUTOSARTemplates/CommonStructure/Timing/TimingConstraint/OffsetConstraint.py:16
   k!"OffsetTimingConstraint" [k!"OffsetTimingConstraint", k!"TimingConstraint", k!"Traceable", k!"Identifiable", k!"MultilanguageReferrable", k!"Referrable", k!"ARObject"]
   (.node .nil
    -- M2/AUTOSARTemplates/CommonStructure/ServiceNeeds.py:3895
    k!"OperationCycleTypeEnum" [k!"OperationCycleTypeEnum", k!"AREnum", k!"ARLiteral", k!"ARType"]
    .nil))))

def classTable79 : Bst (List Key) :=
 (.node (.node (.node (.node (.node .nil
     -- M2/AUTOSARTemplates/SWComponentTemplate/Composition/__init__.py:142
     k!"PassThroughSwConnector" [k!"PassThroughSwConnector", k!"SwConnector", k!"AtpStructureElement", k!"AtpBlueprintable", k!"PackageableElement", k!"Identifiable", k!"MultilanguageReferrable", k!"Referrable", k!"ARObject"]
     .nil)
    -- M2/AUTOSARTemplates/SystemTemplate/Fibex/Fibex4Multiplatform.py:133
    k!"PduMappingDefaultValue" [k!"PduMappingDefaultValue", k!"ARObject"]
    .nil)
   -- M2/AUTOSARTemplates/CommonStructure/StandardizationTemplate/BlueprintDedicated/PortPrototypeBlueprint.py:89
   k!"PortPrototypeBlueprint" [k!"PortPrototypeBlueprint", k!"AtpStructureElement", k!"AtpBlueprintable", k!"PackageableElement", k!"Identifiable", k!"MultilanguageReferrable", k!"Referrable", k!"ARObject"]
   (.node .nil
    -- M2/AUTOSARTemplates/GenericStructure/GeneralTemplateClasses/PrimitiveTypes.py:519
    k!"ReferrableSubtypesEnum" [k!"ReferrableSubtypesEnum", k!"ARLiteral", k!"ARType"]
    .nil))
  -- M2/AUTOSARTemplates/CommonStructure/ResourceConsumption/HeapUsage.py:268
  k!"RoughEstimateHeapUsage" [k!"RoughEstimateHeapUsage", k!"HeapUsage", k!"Identifiable", k!"MultilanguageReferrable", k!"Referrable", k!"ARObject"]
  (.node (.node .nil
    -- M2/AUTOSARTemplates/CommonStructure/MeasurementCalibrationSupport/RptSupport/__init__.py:47
    k!"RptEnablerImplTypeEnum" [k!"RptEnablerImplTypeEnum", k!"AREnum", k!"ARLiteral", k!"ARType"]
    .nil)
   -- M2/AUTOSARTemplates/CommonStructure/MeasurementCalibrationSupport/RptSupport/__init__.py:159
   k!"RptSwPrototypingAccess" [k!"RptSwPrototypingAccess", k!"ARObject"]
   (.node .nil
    -- M2/AUTOSARTemplates/SWComponentTemplate/SwcInternalBehavior/__init__.py:39
    k!"RunnableEntityArgument" [k!"RunnableEntityArgument", k!"ARObject"]
    .nil)))
 -- M2/AUTOSARTemplates/SWComponentTemplate/Components/__init__.py:842
 k!"ServiceSwComponentType" [k!"ServiceSwComponentType", k!"AtomicSwComponentType", k!"SwComponentType", k!"AtpType", k!"AtpClassifier", k!"PackageableElement", k!"Identifiable", k!"MultilanguageReferrable", k!"Referrable", k!"ARObject"]
 (.node (.node (.node .nil
    -- M2/AUTOSARTemplates/CommonStructure/ResourceConsumption/ExecutionTime/__init__.py:535
    k!"SimulatedExecutionTime" [k!"SimulatedExecutionTime", k!"ExecutionTime", k!"Identifiable", k!"MultilanguageReferrable", k!"Referrable", k!"ARObject"]
    .nil)
   -- M2/AUTOSARTemplates/SystemTemplate/Fibex/Fibex4Ethernet/EthernetCommunication.py:231
   k!"SocketConnectionBundle" [k!"SocketConnectionBundle", k!"Referrable", k!"ARObject"]
   (.node .nil
    -- M2/AUTOSARTemplates/AdaptivePlatform/PlatformModuleDeployment/Firewall/StateDependentFirewall.py:6
    k!"StateDependentFirewall" [k!"StateDependentFirewall", k!"ARObject"]
    .nil))
  -- M2/AUTOSARTemplates/SWComponentTemplate/SwcInternalBehavior/__init__.py:714
  k!"SwcExclusiveAreaPolicy" [k!"SwcExclusiveAreaPolicy", k!"ARObject"]
  (.node (.node .nil
    -- M2/AUTOSARTemplates/CommonStructure/Constants/__init__.py:262
    k!"TextValueSpecification" [k!"TextValueSpecification", k!"ValueSpecification", k!"ARObject"]
    .nil)
   -- M2/AUTOSARTemplates/CommonStructure/Timing/TimingCondition/TimingConditionFormula.py:4
   k!"TimingConditionFormula" [k!"TimingConditionFormula", k!"ARObject"]
   (.node .nil
    -- M2/MSR/Documentation/Chapters.py:636
    k!"TopicContentOrMsrQuery" [k!"TopicContentOrMsrQuery", k!"ARObject"]
    .nil))))

-- M2/AUTOSARTemplates/SWComponentTemplate/Datatype/DataPrototypes.py:348
def classTable80 : Bst (List Key) :=
 .node classTable78 k!"ParameterDataPrototype" [k!"ParameterDataPrototype", k!"AutosarDataPrototype", k!"DataPrototype", k!"AtpPrototype", k!"AtpBlueprintable", k!"PackageableElement", k!"Identifiable", k!"MultilanguageReferrable", k!"Referrable", k!"ARObject"] classTable79

def classTable81 : Bst (List Key) :=
 (.node (.node (.node (.node (.node .nil
     -- M2/AUTOSARTemplates/SystemTemplate/Fibex/Fibex4Ethernet/ServiceInstances.py:238
     k!"AbstractServiceInstance" [k!"AbstractServiceInstance", k!"Identifiable", k!"MultilanguageReferrable", k!"Referrable", k!"ARObject"]
     .nil)
    -- M2/AUTOSARTemplates/SWComponentTemplate/Datatype/DataPrototypes.py:181
    k!"ApplicationArrayElement" [k!"ApplicationArrayElement", k!"ApplicationCompositeElementDataPrototype", k!"DataPrototype", k!"AtpPrototype", k!"AtpBlueprintable", k!"PackageableElement", k!"Identifiable", k!"MultilanguageReferrable", k!"Referrable", k!"ARObject"]
    .nil)
   -- M2/AUTOSARTemplates/CommonStructure/Constants/__init__.py:351
   k!"ArrayValueSpecification" [k!"ArrayValueSpecification", k!"ValueSpecification", k!"ARObject"]
   (.node .nil
    -- M2/AUTOSARTemplates/BswModuleTemplate/BswInterfaces.py:664
    k!"BswEntryRelationshipSet" [k!"BswEntryRelationshipSet", k!"Identifiable", k!"MultilanguageReferrable", k!"Referrable", k!"ARObject"]
    .nil))
  -- M2/AUTOSARTemplates/BswModuleTemplate/BswBehavior/__init__.py:1433
  k!"BswModeSwitchAckRequest" [k!"BswModeSwitchAckRequest", k!"ARObject"]
  (.node (.node .nil
    -- M2/AUTOSARTemplates/BswModuleTemplate/BswBehavior/__init__.py:1160
    k!"BswModeSwitchedAckEvent" [k!"BswModeSwitchedAckEvent", k!"BswScheduleEvent", k!"BswEvent", k!"AbstractEvent", k!"Identifiable", k!"MultilanguageReferrable", k!"Referrable", k!"ARObject"]
    .nil)
   -- M2/AUTOSARTemplates/BswModuleTemplate/BswBehavior/__init__.py:1728
   k!"BswOsTaskExecutionEvent" [k!"BswOsTaskExecutionEvent", k!"BswScheduleEvent", k!"BswEvent", k!"AbstractEvent", k!"Identifiable", k!"MultilanguageReferrable", k!"Referrable", k!"ARObject"]
   (.node .nil
    -- M2/AUTOSARTemplates/SystemTemplate/Fibex/FibexCore/CoreTopology.py:713
    k!"CommunicationController" [k!"CommunicationController", k!"Identifiable", k!"MultilanguageReferrable", k!"Referrable", k!"ARObject"]
    .nil)))
 -- M2/AUTOSARTemplates/SystemTemplate/Fibex/Fibex4Ethernet/ServiceInstances.py:414
 k!"ConsumedServiceInstance" [k!"ConsumedServiceInstance", k!"AbstractServiceInstance", k!"Identifiable", k!"MultilanguageReferrable", k!"Referrable", k!"ARObject"]
 (.node (.node (.node .nil
    -- M2/AUTOSARTemplates/SWComponentTemplate/SwcInternalBehavior/RTEEvents.py:160
    k!"DataWriteCompletedEvent" [k!"DataWriteCompletedEvent", k!"RTEEvent", k!"AtpStructureElement", k!"AtpBlueprintable", k!"PackageableElement", k!"AbstractEvent", k!"Identifiable", k!"MultilanguageReferrable", k!"Referrable", k!"ARObject"]
    .nil)
   -- M2/AUTOSARTemplates/SWComponentTemplate/ApplicationAttributes/__init__.py:594
   k!"DelegatedPortAnnotation" [k!"DelegatedPortAnnotation", k!"GeneralAnnotation", k!"ARObject"]
   (.node .nil
    -- M2/AUTOSARTemplates/GenericStructure/GeneralTemplateClasses/PrimitiveTypes.py:1129
    k!"DiagRequirementIdString" [k!"DiagRequirementIdString", k!"ARLiteral", k!"ARType"]
    .nil))
  -- M2/AUTOSARTemplates/DiagnosticExtract/DiagnosticCommonElement.py:7
  k!"DiagnosticCommonElement" [k!"DiagnosticCommonElement", k!"ARElement", k!"PackageableElement", k!"Identifiable", k!"MultilanguageReferrable", k!"Referrable", k!"ARObject"]
  (.node (.node .nil
    -- M2/MSR/DataDictionary/DataDefProperties.py:94
    k!"DisplayPresentationEnum" [k!"DisplayPresentationEnum", k!"AREnum", k!"ARLiteral", k!"ARType"]
    .nil)
   -- M2/AUTOSARTemplates/CommonStructure/ServiceNeeds.py:2746
   k!"DoIpActivationLineNeeds" [k!"DoIpActivationLineNeeds", k!"ServiceNeeds", k!"Identifiable", k!"MultilanguageReferrable", k!"Referrable", k!"ARObject"]
   (.node .nil
    -- M2/AUTOSARTemplates/ECUCParameterDefTemplate.py:1471
    k!"EcucEnumerationParamDef" [k!"EcucEnumerationParamDef", k!"EcucParameterDef", k!"EcucCommonAttributes", k!"EcucDefinitionElement", k!"Identifiable", k!"MultilanguageReferrable", k!"Referrable", k!"ARObject"]
    .nil))))

def classTable82 : Bst (List Key) :=
 (.node (.node (.node (.node .nil
    -- M2/AUTOSARTemplates/ECUCDescriptionTemplate.py:183
    k!"EcucNumericalParamValue" [k!"EcucNumericalParamValue", k!"EcucParameterValue", k!"EcucIndexableValue", k!"ARObject"]
    .nil)
   -- M2/AUTOSARTemplates/ECUCParameterDefTemplate.py:101
   k!"EcucValidationCondition" [k!"EcucValidationCondition", k!"Identifiable", k!"MultilanguageReferrable", k!"Referrable", k!"ARObject"]
   (.node .nil
    -- M2/AUTOSARTemplates/SystemTemplate/Fibex/FibexCore/CoreTopology.py:295
    k!"EthernetPhysicalChannel" [k!"EthernetPhysicalChannel", k!"PhysicalChannel", k!"Identifiable", k!"MultilanguageReferrable", k!"Referrable", k!"ARObject"]
    .nil))
  -- M2/AUTOSARTemplates/CommonStructure/Timing/TimingConstraint/SynchronizationTiming.py:41
  k!"EventOccurrenceKindEnum" [k!"EventOccurrenceKindEnum", k!"AREnum", k!"ARLiteral", k!"ARType"]
  (.node (.node .nil
    -- M2/AUTOSARTemplates/CommonStructure/Timing/TimingConstraint/ExecutionTimeConstraint.py:41
    k!"ExecutionTimeConstraint" [k!"ExecutionTimeConstraint", k!"TimingConstraint", k!"Traceable", k!"Identifiable", k!"MultilanguageReferrable", k!"Referrable", k!"ARObject"]
    .nil)
   -- M2/AUTOSARTemplates/SWComponentTemplate/SwcInternalBehavior/Trigger.py:71
   k!"ExternalTriggeringPoint" [k!"ExternalTriggeringPoint", k!"ARObject"]
   (.node .nil
    -- M2/AUTOSARTemplates/CommonStructure/ServiceNeeds.py:3202
    k!"FunctionInhibitionNeeds" [k!"FunctionInhibitionNeeds", k!"ServiceNeeds", k!"Identifiable", k!"MultilanguageReferrable", k!"Referrable", k!"ARObject"]
    .nil)))
 -- M2/AUTOSARTemplates/AdaptivePlatform/PlatformModuleDeployment/IntrusionDetectionSystem/IdsmModuleInstantiation.py:9
 k!"IdsmModuleInstantiation" [k!"IdsmModuleInstantiation", k!"IdsPlatformInstantiation", k!"Identifiable", k!"MultilanguageReferrable", k!"Referrable", k!"ARObject"]
 (.node (.node (.node .nil
    -- M2/AUTOSARTemplates/SWComponentTemplate/SwcInternalBehavior/Trigger.py:19
    k!"InternalTriggeringPoint" [k!"InternalTriggeringPoint", k!"AbstractAccessPoint", k!"AtpStructureElement", k!"AtpBlueprintable", k!"PackageableElement", k!"Identifiable", k!"MultilanguageReferrable", k!"Referrable", k!"ARObject"]
    .nil)
   -- M2/AUTOSARTemplates/CommonStructure/Timing/TimingConstraint/LatencyTimingConstraint.py:41
   k!"LatencyTimingConstraint" [k!"LatencyTimingConstraint", k!"TimingConstraint", k!"Traceable", k!"Identifiable", k!"MultilanguageReferrable", k!"Referrable", k!"ARObject"]
   (.node .nil
    -- M2/AUTOSARTemplates/CommonStructure/MeasurementCalibrationSupport/__init__.py:366
    k!"McParameterElementGroup" [k!"McParameterElementGroup", k!"ARObject"]
    .nil))
  -- M2/MSR/Documentation/TextModel/LanguageDataModel.py:219
  k!"MixedContentForLongName" [k!"MixedContentForLongName", k!"ARObject"]
  (.node (.node .nil
    -- M2/AUTOSARTemplates/SWComponentTemplate/Communication.py:1202
    k!"ModeSwitchSenderComSpec" [k!"ModeSwitchSenderComSpec", k!"PPortComSpec", k!"ARObject"]
    .nil)
   -- M2/AUTOSARTemplates/GenericStructure/GeneralTemplateClasses/Identifiable.py:186
   k!"MultilanguageReferrable" [k!"MultilanguageReferrable", k!"Referrable", k!"ARObject"]
   (.node .nil
    -- M2/AUTOSARTemplates/GenericStructure/GeneralTemplateClasses/PrimitiveTypes.py:459
    k!"NativeDeclarationString" [k!"NativeDeclarationString", k!"ARLiteral", k!"ARType"]
    .nil))))

-- M2/AUTOSARTemplates/ECUCParameterDefTemplate.py:1156
def classTable83 : Bst (List Key) :=
 .node classTable81 k!"EcucForeignReferenceDef" [k!"EcucForeignReferenceDef", k!"EcucAbstractExternalReferenceDef", k!"EcucAbstractReferenceDef", k!"EcucCommonAttributes", k!"EcucDefinitionElement", k!"Identifiable", k!"MultilanguageReferrable", k!"Referrable", k!"ARObject"] classTable82

-- M2/AUTOSARTemplates/SystemTemplate/Fibex/FibexCore/Timing.py:168
def classTable84 : Bst (List Key) :=
 .node classTable80 k!"TransmissionModeTiming" [k!"TransmissionModeTiming", k!"ARObject"] classTable83

def classTable85 : Bst (List Key) :=
 (.node (.node (.node (.node (.node .nil
     -- M2/AUTOSARTemplates/SWComponentTemplate/Communication.py:1319
     k!"ParameterProvideComSpec" [k!"ParameterProvideComSpec", k!"PPortComSpec", k!"ARObject"]
     .nil)
    -- M2/AUTOSARTemplates/SWComponentTemplate/Communication.py:839
    k!"ParameterRequireComSpec" [k!"ParameterRequireComSpec", k!"RPortComSpec", k!"ARObject"]
    .nil)
   -- M2/AUTOSARTemplates/CommonStructure/Timing/TimingConstraint/EventTriggeringConstraint.py:43
   k!"PeriodicEventTriggering" [k!"PeriodicEventTriggering", k!"EventTriggeringConstraint", k!"TimingConstraint", k!"Traceable", k!"Identifiable", k!"MultilanguageReferrable", k!"Referrable", k!"ARObject"]
   (.node .nil
    -- M2/AUTOSARTemplates/SWComponentTemplate/PortInterface/__init__.py:1295
    k!"PortInterfaceMappingSet" [k!"PortInterfaceMappingSet", k!"AtpBlueprintable", k!"PackageableElement", k!"Identifiable", k!"MultilanguageReferrable", k!"Referrable", k!"ARObject"]
    .nil))
  -- M2/AUTOSARTemplates/CommonStructure/Implementation.py:57
  k!"ProgramminglanguageEnum" [k!"ProgramminglanguageEnum", k!"AREnum", k!"ARLiteral", k!"ARType"]
  (.node (.node .nil
    -- M2/AUTOSARTemplates/SystemTemplate/Fibex/Fibex4Ethernet/ServiceInstances.py:806
    k!"ProvidedServiceInstance" [k!"ProvidedServiceInstance", k!"AbstractServiceInstance", k!"Identifiable", k!"MultilanguageReferrable", k!"Referrable", k!"ARObject"]
    .nil)
   -- M2/AUTOSARTemplates/CommonStructure/ServiceNeeds.py:22
   k!"RoleBasedDataAssignment" [k!"RoleBasedDataAssignment", k!"ARObject"]
   (.node .nil
    -- M2/AUTOSARTemplates/SWComponentTemplate/SwcInternalBehavior/ServiceMapping.py:47
    k!"RoleBasedPortAssignment" [k!"RoleBasedPortAssignment", k!"ARObject"]
    .nil)))
 -- M2/AUTOSARTemplates/CommonStructure/ResourceConsumption/StackUsage.py:298
 k!"RoughEstimateStackUsage" [k!"RoughEstimateStackUsage", k!"StackUsage", k!"Identifiable", k!"MultilanguageReferrable", k!"Referrable", k!"ARObject"]
 (.node (.node (.node .nil
    -- M2/AUTOSARTemplates/CommonStructure/MeasurementCalibrationSupport/RptSupport/__init__.py:80
    k!"RptExecutionControlEnum" [k!"RptExecutionControlEnum", k!"AREnum", k!"ARLiteral", k!"ARType"]
    .nil)
   -- M2/MSR/AsamHdo/Constraints/GlobalConstraints.py:147
   k!"ScaleConstrValidityEnum" [k!"ScaleConstrValidityEnum", k!"AREnum", k!"ARLiteral", k!"ARType"]
   (.node .nil
    -- M2/AUTOSARTemplates/SWComponentTemplate/PortInterface/__init__.py:292
    k!"SenderReceiverInterface" [k!"SenderReceiverInterface", k!"DataInterface", k!"PortInterface", k!"AtpType", k!"AtpClassifier", k!"PackageableElement", k!"Identifiable", k!"MultilanguageReferrable", k!"Referrable", k!"ARObject"]
    .nil))
  -- M2/MSR/AsamHdo/Units.py:164
  k!"SingleLanguageUnitNames" [k!"SingleLanguageUnitNames", k!"ARLiteral", k!"ARType"]
  (.node (.node .nil
    -- M2/AUTOSARTemplates/CommonStructure/Timing/TimingConstraint/EventTriggeringConstraint.py:75
    k!"SporadicEventTriggering" [k!"SporadicEventTriggering", k!"EventTriggeringConstraint", k!"TimingConstraint", k!"Traceable", k!"Identifiable", k!"MultilanguageReferrable", k!"Referrable", k!"ARObject"]
    .nil)
   -- M2/MSR/DataDictionary/DataDefProperties.py:69
   k!"SwCalibrationAccessEnum" [k!"SwCalibrationAccessEnum", k!"AREnum", k!"ARLiteral", k!"ARType"]
   (.node .nil
    -- M2/AUTOSARTemplates/BswModuleTemplate/BswInterfaces.py:101
    k!"SwServiceImplPolicyEnum" [k!"SwServiceImplPolicyEnum", k!"AREnum", k!"ARLiteral", k!"ARType"]
    .nil))))

def classTable86 : Bst (List Key) :=
 (.node (.node (.node (.node .nil
    -- M2/AUTOSARTemplates/CommonStructure/Timing/TimingClock/TimingClockSyncAccuracy.py:4
    k!"TimingClockSyncAccuracy" [k!"TimingClockSyncAccuracy", k!"ARObject"]
    .nil)
   -- M2/AUTOSARTemplates/CommonStructure/Timing/TimingCondition/TimingExtensionResource.py:4
   k!"TimingExtensionResource" [k!"TimingExtensionResource", k!"ARObject"]
   (.node .nil
    -- M2/AUTOSARTemplates/SystemTemplate/SecureCommunication.py:74
    k!"TlsCryptoServiceMapping" [k!"TlsCryptoServiceMapping", k!"CryptoServiceMapping", k!"Identifiable", k!"MultilanguageReferrable", k!"Referrable", k!"ARObject"]
    .nil))
  -- M2/AUTOSARTemplates/SWComponentTemplate/PortInterface/__init__.py:1198
  k!"TriggerInterfaceMapping" [k!"TriggerInterfaceMapping", k!"PortInterfaceMapping", k!"AtpBlueprintable", k!"PackageableElement", k!"Identifiable", k!"MultilanguageReferrable", k!"Referrable", k!"ARObject"]
  (.node (.node .nil
    -- M2/AUTOSARTemplates/SWComponentTemplate/Datatype/Datatypes.py:120
    k!"ApplicationArrayDataType" [k!"ApplicationArrayDataType", k!"ApplicationCompositeDataType", k!"ApplicationDataType", k!"AutosarDataType", k!"AtpType", k!"AtpClassifier", k!"PackageableElement", k!"Identifiable", k!"MultilanguageReferrable", k!"Referrable", k!"ARObject"]
    .nil)
   -- M2/AUTOSARTemplates/SWComponentTemplate/Datatype/DataPrototypes.py:308
   k!"ApplicationRecordElement" [k!"ApplicationRecordElement", k!"ApplicationCompositeElementDataPrototype", k!"DataPrototype", k!"AtpPrototype", k!"AtpBlueprintable", k!"PackageableElement", k!"Identifiable", k!"MultilanguageReferrable", k!"Referrable", k!"ARObject"]
   (.node .nil
    -- M2/AUTOSARTemplates/CommonStructure/Timing/TimingConstraint/EventTriggeringConstraint.py:107
    k!"ArbitraryEventTriggering" [k!"ArbitraryEventTriggering", k!"EventTriggeringConstraint", k!"TimingConstraint", k!"Traceable", k!"Identifiable", k!"MultilanguageReferrable", k!"Referrable", k!"ARObject"]
    .nil)))
 -- M2/AUTOSARTemplates/GenericStructure/GeneralTemplateClasses/EngineeringObject.py:174
 k!"AutosarEngineeringObject" [k!"AutosarEngineeringObject", k!"EngineeringObject", k!"ARObject"]
 (.node (.node (.node .nil
    -- M2/MSR/AsamHdo/BaseTypes.py:31
    k!"BaseTypeDirectDefinition" [k!"BaseTypeDirectDefinition", k!"BaseTypeDefinition", k!"ARObject"]
    .nil)
   -- M2/AUTOSARTemplates/BswModuleTemplate/BswInterfaces.py:565
   k!"BswEntryRelationshipEnum" [k!"BswEntryRelationshipEnum", k!"AREnum", k!"ARLiteral", k!"ARType"]
   (.node .nil
    -- M2/AUTOSARTemplates/BswModuleTemplate/BswBehavior/__init__.py:1217
    k!"BswModeManagerErrorEvent" [k!"BswModeManagerErrorEvent", k!"BswScheduleEvent", k!"BswEvent", k!"AbstractEvent", k!"Identifiable", k!"MultilanguageReferrable", k!"Referrable", k!"ARObject"]
    .nil))
  -- M2/AUTOSARTemplates/BswModuleTemplate/BswBehavior/__init__.py:958
  k!"BswOperationInvokedEvent" [k!"BswOperationInvokedEvent", k!"BswEvent", k!"AbstractEvent", k!"Identifiable", k!"MultilanguageReferrable", k!"Referrable", k!"ARObject"]
  (.node (.node .nil
    -- M2/AUTOSARTemplates/SystemTemplate/Fibex/FibexCore/CoreTopology.py:540
    k!"CanClusterBusOffRecovery" [k!"CanClusterBusOffRecovery", k!"ARObject"]
    .nil)
   -- M2/MSR/AsamHdo/ComputationMethod.py:154
   k!"CompuConstFormulaContent" [k!"CompuConstFormulaContent", k!"CompuConstContent", k!"ARObject"]
   (.node .nil
    -- M2/MSR/AsamHdo/ComputationMethod.py:130
    k!"CompuConstNumericContent" [k!"CompuConstNumericContent", k!"CompuConstContent", k!"ARObject"]
    .nil))))

-- M2/AUTOSARTemplates/CommonStructure/Timing/TimingConstraint/SynchronizationTiming.py:19
def classTable87 : Bst (List Key) :=
 .node classTable85 k!"SynchronizationTypeEnum" [k!"SynchronizationTypeEnum", k!"AREnum", k!"ARLiteral", k!"ARType"] classTable86

def classTable88 : Bst (List Key) :=
 (.node (.node (.node (.node (.node .nil
     -- M2/AUTOSARTemplates/CommonStructure/ServiceNeeds.py:2274
     k!"DiagnosticComponentNeeds" [k!"DiagnosticComponentNeeds", k!"ServiceNeeds", k!"Identifiable", k!"MultilanguageReferrable", k!"Referrable", k!"ARObject"]
     .nil)
    -- M2/AUTOSARTemplates/CommonStructure/ServiceNeeds.py:1475
    k!"DiagnosticEventInfoNeeds" [k!"DiagnosticEventInfoNeeds", k!"DiagnosticCapabilityElement", k!"ServiceNeeds", k!"Identifiable", k!"MultilanguageReferrable", k!"Referrable", k!"ARObject"]
    .nil)
   -- M2/AUTOSARTemplates/CommonStructure/ServiceNeeds.py:2422
   k!"DiagnosticIoControlNeeds" [k!"DiagnosticIoControlNeeds", k!"DiagnosticCapabilityElement", k!"ServiceNeeds", k!"Identifiable", k!"MultilanguageReferrable", k!"Referrable", k!"ARObject"]
   (.node .nil
    -- M2/AUTOSARTemplates/CommonStructure/ServiceNeeds.py:2806
    k!"DoIpPowerModeStatusNeeds" [k!"DoIpPowerModeStatusNeeds", k!"ServiceNeeds", k!"Identifiable", k!"MultilanguageReferrable", k!"Referrable", k!"ARObject"]
    .nil))
  -- M2/AUTOSARTemplates/ECUCParameterDefTemplate.py:930
  k!"EcucAbstractReferenceDef" [k!"EcucAbstractReferenceDef", k!"EcucCommonAttributes", k!"EcucDefinitionElement", k!"Identifiable", k!"MultilanguageReferrable", k!"Referrable", k!"ARObject"]
  (.node (.node .nil
    -- M2/AUTOSARTemplates/ECUCParameterDefTemplate.py:1945
    k!"EcucDefinitionCollection" [k!"EcucDefinitionCollection", k!"AtpBlueprintable", k!"PackageableElement", k!"Identifiable", k!"MultilanguageReferrable", k!"Referrable", k!"ARObject"]
    .nil)
   -- M2/AUTOSARTemplates/ECUCParameterDefTemplate.py:2013
   k!"EcucDestinationUriDefSet" [k!"EcucDestinationUriDefSet", k!"AtpBlueprintable", k!"PackageableElement", k!"Identifiable", k!"MultilanguageReferrable", k!"Referrable", k!"ARObject"]
   (.node .nil
    -- M2/AUTOSARTemplates/ECUCParameterDefTemplate.py:2056
    k!"EcucDestinationUriPolicy" [k!"EcucDestinationUriPolicy", k!"ARObject"]
    .nil)))
 -- M2/AUTOSARTemplates/ECUCParameterDefTemplate.py:1190
 k!"EcucInstanceReferenceDef" [k!"EcucInstanceReferenceDef", k!"EcucAbstractExternalReferenceDef", k!"EcucAbstractReferenceDef", k!"EcucCommonAttributes", k!"EcucDefinitionElement", k!"Identifiable", k!"MultilanguageReferrable", k!"Referrable", k!"ARObject"]
 (.node (.node (.node .nil
    -- M2/AUTOSARTemplates/CommonStructure/Timing/TimingConstraint/ExecutionOrderConstraint.py:73
    k!"ExecutionOrderConstraint" [k!"ExecutionOrderConstraint", k!"TimingConstraint", k!"Traceable", k!"Identifiable", k!"MultilanguageReferrable", k!"Referrable", k!"ARObject"]
    .nil)
   -- M2/AUTOSARTemplates/SystemTemplate/Fibex/Fibex4Flexray/FlexrayTopology.py:1200
   k!"FlexrayFifoConfiguration" [k!"FlexrayFifoConfiguration", k!"ARObject"]
   (.node .nil
    -- M2/AUTOSARTemplates/SystemTemplate/NetworkManagement.py:75
    k!"FlexrayNmClusterCoupling" [k!"FlexrayNmClusterCoupling", k!"NmClusterCoupling", k!"ARObject"]
    .nil))
  -- M2/AUTOSARTemplates/GenericStructure/VariantHandling/AttributeValueVariationPoints/__init__.py:227
  k!"FloatValueVariationPoint" [k!"FloatValueVariationPoint", k!"AttributeValueVariationPoint", k!"ARObject"]
  (.node (.node .nil
    -- M2/AUTOSARTemplates/SystemTemplate/Fibex/FibexCore/CoreTopology.py:825
    k!"IPduSignalProcessingEnum" [k!"IPduSignalProcessingEnum"]
    .nil)
   -- M2/AUTOSARTemplates/AdaptivePlatform/PlatformModuleDeployment/IntrusionDetectionSystem/IdsPlatformInstantiation.py:11
   k!"IdsPlatformInstantiation" [k!"IdsPlatformInstantiation", k!"Identifiable", k!"MultilanguageReferrable", k!"Referrable", k!"ARObject"]
   (.node .nil
    -- M2/AUTOSARTemplates/GenericStructure/VariantHandling/AttributeValueVariationPoints/__init__.py:174
    k!"LimitValueVariationPoint" [k!"LimitValueVariationPoint", k!"AbstractNumericalVariationPoint", k!"AttributeValueVariationPoint", k!"ARObject"]
    .nil))))

def classTable89 : Bst (List Key) :=
 (.node (.node (.node (.node .nil
    -- M2/AUTOSARTemplates/CommonStructure/ServiceNeeds.py:3751
    k!"ObdRatioDenominatorNeeds" [k!"ObdRatioDenominatorNeeds", k!"ServiceNeeds", k!"Identifiable", k!"MultilanguageReferrable", k!"Referrable", k!"ARObject"]
    .nil)
   -- M2/AUTOSARTemplates/SWComponentTemplate/SwcInternalBehavior/PortAPIOptions.py:12
   k!"PortDefinedArgumentValue" [k!"PortDefinedArgumentValue", k!"ARObject"]
   (.node .nil
    -- M2/AUTOSARTemplates/GenericStructure/GeneralTemplateClasses/PrimitiveTypes.py:682
    k!"PositiveUnlimitedInteger" [k!"PositiveUnlimitedInteger", k!"ARPositiveInteger", k!"ARNumerical", k!"ARType"]
    .nil))
  -- M2/AUTOSARTemplates/CommonStructure/Constants/__init__.py:222
  k!"RecordValueSpecification" [k!"RecordValueSpecification", k!"CompositeValueSpecification", k!"ValueSpecification", k!"ARObject"]
  (.node (.node .nil
    -- M2/AUTOSARTemplates/CommonStructure/MeasurementCalibrationSupport/RptSupport/__init__.py:417
    k!"RptExecutableEntityEvent" [k!"RptExecutableEntityEvent", k!"Identifiable", k!"MultilanguageReferrable", k!"Referrable", k!"ARObject"]
    .nil)
   -- M2/AUTOSARTemplates/CommonStructure/MeasurementCalibrationSupport/__init__.py:20
   k!"RteEventInEcuInstanceRef" [k!"RteEventInEcuInstanceRef", k!"AtpInstanceRef", k!"ARObject"]
   (.node .nil
    -- M2/AUTOSARTemplates/SystemTemplate/Fibex/FibexCore/CoreCommunication.py:471
    k!"SecureCommunicationProps" [k!"SecureCommunicationProps", k!"ARObject"]
    .nil)))
 -- M2/AUTOSARTemplates/SWComponentTemplate/ApplicationAttributes/__init__.py:148
 k!"SenderReceiverAnnotation" [k!"SenderReceiverAnnotation", k!"GeneralAnnotation", k!"ARObject"]
 (.node (.node (.node .nil
    -- M2/AUTOSARTemplates/SWComponentTemplate/SoftwareComponentDocumentation.py:18
    k!"SwComponentDocumentation" [k!"SwComponentDocumentation", k!"ARObject"]
    .nil)
   -- M2/AUTOSARTemplates/GenericStructure/VariantHandling/__init__.py:275
   k!"SwSystemconstantValueSet" [k!"SwSystemconstantValueSet", k!"Identifiable", k!"MultilanguageReferrable", k!"Referrable", k!"ARObject"]
   (.node .nil
    -- M2/AUTOSARTemplates/CommonStructure/ServiceNeeds.py:4391
    k!"SyncTimeBaseMgrUserNeeds" [k!"SyncTimeBaseMgrUserNeeds", k!"ServiceNeeds", k!"Identifiable", k!"MultilanguageReferrable", k!"Referrable", k!"ARObject"]
    .nil))
  -- M2/AUTOSARTemplates/SystemTemplate/Transformer/__init__.py:792
  k!"TransformationTechnology" [k!"TransformationTechnology", k!"Identifiable", k!"MultilanguageReferrable", k!"Referrable", k!"ARObject"]
  (.node (.node .nil
    -- M2/AUTOSARTemplates/SWComponentTemplate/Communication.py:269
    k!"TransmissionComSpecProps" [k!"TransmissionComSpecProps", k!"ARObject"]
    .nil)
   -- M2/AUTOSARTemplates/SWComponentTemplate/Datatype/Datatypes.py:193
   k!"ApplicationRecordDataType" [k!"ApplicationRecordDataType", k!"ApplicationCompositeDataType", k!"ApplicationDataType", k!"AutosarDataType", k!"AtpType", k!"AtpClassifier", k!"PackageableElement", k!"Identifiable", k!"MultilanguageReferrable", k!"Referrable", k!"ARObject"]
   (.node .nil
    -- M2/AUTOSARTemplates/BswModuleTemplate/BswBehavior/__init__.py:385
    k!"BswDistinguishedPartition" [k!"BswDistinguishedPartition", k!"Referrable", k!"ARObject"]
    .nil))))

-- M2/AUTOSARTemplates/SWComponentTemplate/Communication.py:1575
def classTable90 : Bst (List Key) :=
 .node classTable88 k!"NonqueuedReceiverComSpec" [k!"NonqueuedReceiverComSpec", k!"ReceiverComSpec", k!"RPortComSpec", k!"ARObject"] classTable89

-- M2/AUTOSARTemplates/CommonStructure/ServiceNeeds.py:2159
def classTable91 : Bst (List Key) :=
 .node classTable87 k!"CryptoKeyManagementNeeds" [k!"CryptoKeyManagementNeeds", k!"ServiceNeeds", k!"Identifiable", k!"MultilanguageReferrable", k!"Referrable", k!"ARObject"] classTable90

-- M2/AUTOSARTemplates/SWComponentTemplate/ApplicationAttributes/__init__.py:508
def classTable92 : Bst (List Key) :=
 .node classTable84 k!"ParameterPortAnnotation" [k!"ParameterPortAnnotation", k!"GeneralAnnotation", k!"ARObject"] classTable91

-- M2/AUTOSARTemplates/SystemTemplate/Fibex/Fibex4Flexray/FlexrayCommunication.py:60
def classTable93 : Bst (List Key) :=
 .node classTable77 k!"FlexrayFrameTriggering" [k!"FlexrayFrameTriggering", k!"FrameTriggering", k!"Identifiable", k!"MultilanguageReferrable", k!"Referrable", k!"ARObject"] classTable92

def classTable94 : Bst (List Key) :=
 (.node (.node (.node (.node (.node .nil
     -- M2/AUTOSARTemplates/SystemTemplate/Fibex/Fibex4Can/CanTopology.py:954
     k!"CanCommunicationConnector" [k!"CanCommunicationConnector", k!"AbstractCanCommunicationConnector", k!"CommunicationConnector", k!"Identifiable", k!"MultilanguageReferrable", k!"Referrable", k!"ARObject"]
     .nil)
    -- M2/MSR/AsamHdo/ComputationMethod.py:277
    k!"CompuNominatorDenominator" [k!"CompuNominatorDenominator", k!"ARObject"]
    .nil)
   -- M2/MSR/AsamHdo/ComputationMethod.py:253
   k!"CompuScaleRationalFormula" [k!"CompuScaleRationalFormula", k!"CompuScaleContents", k!"ARObject"]
   (.node .nil
    -- M2/AUTOSARTemplates/CommonStructure/ServiceNeeds.py:878
    k!"DiagnosticRoutineTypeEnum" [k!"DiagnosticRoutineTypeEnum", k!"AREnum", k!"ARLiteral", k!"ARType"]
    .nil))
  -- M2/AUTOSARTemplates/CommonStructure/ServiceNeeds.py:1027
  k!"DiagnosticValueAccessEnum" [k!"DiagnosticValueAccessEnum", k!"AREnum", k!"ARLiteral", k!"ARType"]
  (.node (.node .nil
    -- M2/AUTOSARTemplates/ECUCParameterDefTemplate.py:1421
    k!"EcucEnumerationLiteralDef" [k!"EcucEnumerationLiteralDef", k!"Identifiable", k!"MultilanguageReferrable", k!"Referrable", k!"ARObject"]
    .nil)
   -- M2/AUTOSARTemplates/ECUCParameterDefTemplate.py:1596
   k!"EcucParamConfContainerDef" [k!"EcucParamConfContainerDef", k!"EcucContainerDef", k!"EcucDefinitionElement", k!"Identifiable", k!"MultilanguageReferrable", k!"Referrable", k!"ARObject"]
   (.node .nil
    -- M2/AUTOSARTemplates/CommonStructure/ServiceNeeds.py:3130
    k!"EventAcceptanceStatusEnum" [k!"EventAcceptanceStatusEnum", k!"AREnum", k!"ARLiteral", k!"ARType"]
    .nil)))
 -- M2/AUTOSARTemplates/CommonStructure/Timing/TimingConstraint/EventTriggeringConstraint.py:26
 k!"EventTriggeringConstraint" [k!"EventTriggeringConstraint", k!"TimingConstraint", k!"Traceable", k!"Identifiable", k!"MultilanguageReferrable", k!"Referrable", k!"ARObject"]
 (.node (.node (.node .nil
    -- M2/AUTOSARTemplates/CommonStructure/InternalBehavior.py:556
    k!"ExclusiveAreaNestingOrder" [k!"ExclusiveAreaNestingOrder", k!"Referrable", k!"ARObject"]
    .nil)
   -- M2/AUTOSARTemplates/SWComponentTemplate/SwcInternalBehavior/InstantiationDataDefProps.py:9
   k!"InstantiationDataDefProps" [k!"InstantiationDataDefProps", k!"ARObject"]
   (.node .nil
    -- M2/AUTOSARTemplates/SystemTemplate/__init__.py:470
    k!"J1939SharedAddressCluster" [k!"J1939SharedAddressCluster", k!"Identifiable", k!"MultilanguageReferrable", k!"Referrable", k!"ARObject"]
    .nil))
  -- M2/AUTOSARTemplates/CommonStructure/Timing/TimingConstraint/LatencyTimingConstraint.py:19
  k!"LatencyConstraintTypeEnum" [k!"LatencyConstraintTypeEnum", k!"AREnum", k!"ARLiteral", k!"ARType"]
  (.node (.node .nil
    -- M2/AUTOSARTemplates/SystemTemplate/Fibex/Fibex4Lin/LinTopology.py:83
    k!"LinCommunicationConnector" [k!"LinCommunicationConnector", k!"CommunicationConnector", k!"Identifiable", k!"MultilanguageReferrable", k!"Referrable", k!"ARObject"]
    .nil)
   -- M2/AUTOSARTemplates/SWComponentTemplate/PortInterface/__init__.py:1273
   k!"ModeDeclarationMappingSet" [k!"ModeDeclarationMappingSet", k!"AtpType", k!"AtpClassifier", k!"PackageableElement", k!"Identifiable", k!"MultilanguageReferrable", k!"Referrable", k!"ARObject"]
   (.node .nil
    -- M2/AUTOSARTemplates/SWComponentTemplate/Communication.py:680
    k!"ModeSwitchReceiverComSpec" [k!"ModeSwitchReceiverComSpec", k!"RPortComSpec", k!"ARObject"]
    .nil))))

def classTable95 : Bst (List Key) :=
 (.node (.node (.node (.node (.node .nil
     -- M2/AUTOSARTemplates/GenericStructure/VariantHandling/__init__.py:18
     k!"PostBuildVariantCriterion" [k!"PostBuildVariantCriterion", k!"ARElement", k!"PackageableElement", k!"Identifiable", k!"MultilanguageReferrable", k!"Referrable", k!"ARObject"]
     .nil)
    -- M2/AUTOSARTemplates/CommonStructure/ServiceNeeds.py:171
    k!"RamBlockStatusControlEnum" [k!"RamBlockStatusControlEnum", k!"AREnum", k!"ARLiteral", k!"ARType"]
    .nil)
   -- M2/AUTOSARTemplates/CommonStructure/MeasurementCalibrationSupport/__init__.py:906
   k!"RoleBasedMcDataAssignment" [k!"RoleBasedMcDataAssignment", k!"ARObject"]
   (.node .nil
    -- M2/AUTOSARTemplates/SystemTemplate/SecureCommunication.py:26
    k!"SecOcCryptoServiceMapping" [k!"SecOcCryptoServiceMapping", k!"CryptoServiceMapping", k!"Identifiable", k!"MultilanguageReferrable", k!"Referrable", k!"ARObject"]
    .nil))
  -- M2/AUTOSARTemplates/SystemTemplate/DataMapping.py:330
  k!"SenderRecArrayTypeMapping" [k!"SenderRecArrayTypeMapping", k!"SenderRecCompositeTypeMapping", k!"ARObject"]
  (.node (.node .nil
    -- M2/AUTOSARTemplates/CommonStructure/SwcBswMapping.py:354
    k!"SwcBswSynchronizedTrigger" [k!"SwcBswSynchronizedTrigger", k!"ARObject"]
    .nil)
   -- M2/AUTOSARTemplates/SystemTemplate/Transformer/__init__.py:178
   k!"TransformationDescription" [k!"TransformationDescription", k!"Describable", k!"ARObject"]
   (.node .nil
    -- M2/AUTOSARTemplates/SystemTemplate/Fibex/FibexCore/Timing.py:32
    k!"TransmissionModeCondition" [k!"TransmissionModeCondition", k!"ARObject"]
    .nil)))
 -- M2/AUTOSARTemplates/SystemTemplate/Fibex/FibexCore/CoreTopology.py:199
 k!"AbstractCanPhysicalChannel" [k!"AbstractCanPhysicalChannel", k!"PhysicalChannel", k!"Identifiable", k!"MultilanguageReferrable", k!"Referrable", k!"ARObject"]
 (.node (.node (.node .nil
    -- M2/AUTOSARTemplates/SWComponentTemplate/Components/__init__.py:633
    k!"ApplicationSwComponentType" [k!"ApplicationSwComponentType", k!"AtomicSwComponentType", k!"SwComponentType", k!"AtpType", k!"AtpClassifier", k!"PackageableElement", k!"Identifiable", k!"MultilanguageReferrable", k!"Referrable", k!"ARObject"]
    .nil)
   -- M2/AUTOSARTemplates/GenericStructure/VariantHandling/AttributeValueVariationPoints/__init__.py:208
   k!"BooleanValueVariationPoint" [k!"BooleanValueVariationPoint", k!"AttributeValueVariationPoint", k!"ARObject"]
   (.node .nil
    -- M2/AUTOSARTemplates/BswModuleTemplate/BswBehavior/__init__.py:2017
    k!"BswInternalTriggeringPoint" [k!"BswInternalTriggeringPoint", k!"Identifiable", k!"MultilanguageReferrable", k!"Referrable", k!"ARObject"]
    .nil))
  -- M2/AUTOSARTemplates/BswModuleTemplate/BswInterfaces.py:460
  k!"BswModuleClientServerEntry" [k!"BswModuleClientServerEntry", k!"Referrable", k!"ARObject"]
  (.node (.node .nil
    -- M2/AUTOSARTemplates/SystemTemplate/Fibex/Fibex4Can/CanTopology.py:924
    k!"CanCommunicationController" [k!"CanCommunicationController", k!"AbstractCanCommunicationController", k!"CommunicationController", k!"Identifiable", k!"MultilanguageReferrable", k!"Referrable", k!"ARObject"]
    .nil)
   -- M2/AUTOSARTemplates/SystemTemplate/Fibex/FibexCore/CoreTopology.py:767
   k!"CommunicationDirectionType" [k!"CommunicationDirectionType", k!"AREnum", k!"ARLiteral", k!"ARType"]
   (.node .nil
    -- M2/AUTOSARTemplates/SWComponentTemplate/Composition/__init__.py:335
    k!"CompositionSwComponentType" [k!"CompositionSwComponentType", k!"SwComponentType", k!"AtpType", k!"AtpClassifier", k!"PackageableElement", k!"Identifiable", k!"MultilanguageReferrable", k!"Referrable", k!"ARObject"]
    .nil))))

-- M2/AUTOSARTemplates/GenericStructure/VariantHandling/__init__.py:312
def classTable96 : Bst (List Key) :=
 .node classTable94 k!"PostBuildVariantCondition" [k!"PostBuildVariantCondition", k!"ARObject"] classTable95

def classTable97 : Bst (List Key) :=
 (.node (.node (.node (.node (.node .nil
     -- M2/AUTOSARTemplates/SystemTemplate/Transformer/__init__.py:16
     k!"DataTransformationKindEnum" [k!"DataTransformationKindEnum", k!"AREnum", k!"ARLiteral", k!"ARType"]
     .nil)
    -- M2/AUTOSARTemplates/CommonStructure/ServiceNeeds.py:1241
    k!"DiagEventDebounceAlgorithm" [k!"DiagEventDebounceAlgorithm", k!"Identifiable", k!"MultilanguageReferrable", k!"Referrable", k!"ARObject"]
    .nil)
   -- M2/AUTOSARTemplates/CommonStructure/ServiceNeeds.py:1405
   k!"DiagEventDebounceTimeBased" [k!"DiagEventDebounceTimeBased", k!"DiagEventDebounceAlgorithm", k!"Identifiable", k!"MultilanguageReferrable", k!"Referrable", k!"ARObject"]
   (.node .nil
    -- M2/AUTOSARTemplates/ECUCDescriptionTemplate.py:205
    k!"EcucAbstractReferenceValue" [k!"EcucAbstractReferenceValue", k!"EcucIndexableValue", k!"ARObject"]
    .nil))
  -- M2/AUTOSARTemplates/ECUCParameterDefTemplate.py:1245
  k!"EcucAbstractStringParamDef" [k!"EcucAbstractStringParamDef", k!"EcucParameterDef", k!"EcucCommonAttributes", k!"EcucDefinitionElement", k!"Identifiable", k!"MultilanguageReferrable", k!"Referrable", k!"ARObject"]
  (.node (.node .nil
    -- M2/AUTOSARTemplates/ECUCParameterDefTemplate.py:13
    k!"EcucConditionSpecification" [k!"EcucConditionSpecification", k!"ARObject"]
    .nil)
   -- M2/AUTOSARTemplates/ECUCParameterDefTemplate.py:365
   k!"EcucConfigurationClassEnum" [k!"EcucConfigurationClassEnum", k!"AREnum", k!"ARLiteral", k!"ARType"]
   (.node .nil
    -- M2/AUTOSARTemplates/ECUCDescriptionTemplate.py:252
    k!"EcucInstanceReferenceValue" [k!"EcucInstanceReferenceValue", k!"EcucAbstractReferenceValue", k!"EcucIndexableValue", k!"ARObject"]
    .nil)))
 -- M2/AUTOSARTemplates/SWComponentTemplate/Communication.py:1830
 k!"HandleOutOfRangeStatusEnum" [k!"HandleOutOfRangeStatusEnum", k!"AREnum", k!"ARLiteral", k!"ARType"]
 (.node (.node (.node .nil
    -- M2/AUTOSARTemplates/CommonStructure/ServiceNeeds.py:3282
    k!"IdsMgrCustomTimestampNeeds" [k!"IdsMgrCustomTimestampNeeds", k!"ServiceNeeds", k!"Identifiable", k!"MultilanguageReferrable", k!"Referrable", k!"ARObject"]
    .nil)
   -- M2/AUTOSARTemplates/SWComponentTemplate/Composition/__init__.py:215
   k!"InstantiationRTEEventProps" [k!"InstantiationRTEEventProps", k!"ARObject"]
   (.node .nil
    -- M2/AUTOSARTemplates/GenericStructure/VariantHandling/AttributeValueVariationPoints/__init__.py:246
    k!"IntegerValueVariationPoint" [k!"IntegerValueVariationPoint", k!"AttributeValueVariationPoint", k!"ARObject"]
    .nil))
  -- M2/AUTOSARTemplates/SystemTemplate/Fibex/Fibex4Lin/LinTopology.py:7
  k!"LinCommunicationController" [k!"LinCommunicationController", k!"CommunicationController", k!"Identifiable", k!"MultilanguageReferrable", k!"Referrable", k!"ARObject"]
  (.node (.node .nil
    -- M2/AUTOSARTemplates/CommonStructure/MeasurementCalibrationSupport/__init__.py:470
    k!"McSwEmulationMethodSupport" [k!"McSwEmulationMethodSupport", k!"ARObject"]
    .nil)
   -- M2/AUTOSARTemplates/CommonStructure/ServiceNeeds.py:3727
   k!"ObdRatioConnectionKindEnum" [k!"ObdRatioConnectionKindEnum", k!"AREnum", k!"ARLiteral", k!"ARType"]
   (.node .nil
    -- M2/AUTOSARTemplates/SystemTemplate/__init__.py:395
    k!"RootSwCompositionPrototype" [k!"RootSwCompositionPrototype", k!"AtpPrototype", k!"AtpBlueprintable", k!"PackageableElement", k!"Identifiable", k!"MultilanguageReferrable", k!"Referrable", k!"ARObject"]
    .nil))))

def classTable98 : Bst (List Key) :=
 (.node (.node (.node (.node .nil
    -- M2/AUTOSARTemplates/CommonStructure/ServiceNeeds.py:4102
    k!"StorageConditionStatusEnum" [k!"StorageConditionStatusEnum", k!"AREnum", k!"ARLiteral", k!"ARType"]
    .nil)
   -- M2/MSR/DataDictionary/RecordLayout.py:118
   k!"SwRecordLayoutGroupContent" [k!"SwRecordLayoutGroupContent", k!"ARObject"]
   (.node .nil
    -- M2/AUTOSARTemplates/SWComponentTemplate/SwcInternalBehavior/__init__.py:85
    k!"SynchronousServerCallPoint" [k!"SynchronousServerCallPoint", k!"ServerCallPoint", k!"AbstractAccessPoint", k!"AtpStructureElement", k!"AtpBlueprintable", k!"PackageableElement", k!"Identifiable", k!"MultilanguageReferrable", k!"Referrable", k!"ARObject"]
    .nil))
  -- M2/AUTOSARTemplates/SWComponentTemplate/Communication.py:1374
  k!"TransformationComSpecProps" [k!"TransformationComSpecProps", k!"Describable", k!"ARObject"]
  (.node (.node .nil
    -- M2/AUTOSARTemplates/SystemTemplate/Transformer/__init__.py:1008
    k!"TransformationISignalProps" [k!"TransformationISignalProps", k!"Describable", k!"ARObject"]
    .nil)
   -- M2/AUTOSARTemplates/CommonStructure/ServiceNeeds.py:4570
   k!"VendorSpecificServiceNeeds" [k!"VendorSpecificServiceNeeds", k!"ServiceNeeds", k!"Identifiable", k!"MultilanguageReferrable", k!"Referrable", k!"ARObject"]
   (.node .nil
    -- M2/AUTOSARTemplates/AbstractPlatform/ApplicationDeferredDataType.py:9
    k!"ApplicationDeferredDataType" [k!"ApplicationDeferredDataType", k!"ApplicationDataType", k!"AutosarDataType", k!"AtpType", k!"AtpClassifier", k!"PackageableElement", k!"Identifiable", k!"MultilanguageReferrable", k!"Referrable", k!"ARObject"]
    .nil)))
 -- M2/AUTOSARTemplates/SWComponentTemplate/SwcInternalBehavior/__init__.py:77
 k!"AsynchronousServerCallPoint" [k!"AsynchronousServerCallPoint", k!"ServerCallPoint", k!"AbstractAccessPoint", k!"AtpStructureElement", k!"AtpBlueprintable", k!"PackageableElement", k!"Identifiable", k!"MultilanguageReferrable", k!"Referrable", k!"ARObject"]
 (.node (.node (.node .nil
    -- M2/AUTOSARTemplates/CommonStructure/Timing/TimingConstraint/EventTriggeringConstraint.py:127
    k!"BurstPatternEventTriggering" [k!"BurstPatternEventTriggering", k!"EventTriggeringConstraint", k!"TimingConstraint", k!"Traceable", k!"Identifiable", k!"MultilanguageReferrable", k!"Referrable", k!"ARObject"]
    .nil)
   -- M2/AUTOSARTemplates/CommonStructure/Constants/__init__.py:64
   k!"CompositeValueSpecification" [k!"CompositeValueSpecification", k!"ValueSpecification", k!"ARObject"]
   (.node .nil
    -- M2/AUTOSARTemplates/CommonStructure/ServiceNeeds.py:773
    k!"DiagnosticCapabilityElement" [k!"DiagnosticCapabilityElement", k!"ServiceNeeds", k!"Identifiable", k!"MultilanguageReferrable", k!"Referrable", k!"ARObject"]
    .nil))
  -- M2/AUTOSARTemplates/CommonStructure/ServiceNeeds.py:2402
  k!"DiagnosticEventManagerNeeds" [k!"DiagnosticEventManagerNeeds", k!"ServiceNeeds", k!"Identifiable", k!"MultilanguageReferrable", k!"Referrable", k!"ARObject"]
  (.node (.node .nil
    -- M2/AUTOSARTemplates/CommonStructure/ServiceNeeds.py:3345
    k!"DiagnosticIndicatorTypeEnum" [k!"DiagnosticIndicatorTypeEnum", k!"AREnum", k!"ARLiteral", k!"ARType"]
    .nil)
   -- M2/AUTOSARTemplates/CommonStructure/ServiceNeeds.py:2786
   k!"DoIpGidSynchronizationNeeds" [k!"DoIpGidSynchronizationNeeds", k!"ServiceNeeds", k!"Identifiable", k!"MultilanguageReferrable", k!"Referrable", k!"ARObject"]
   (.node .nil
    -- M2/AUTOSARTemplates/SystemTemplate/DoIp.py:28
    k!"DoIpLogicTargetAddressProps" [k!"DoIpLogicTargetAddressProps", k!"AbstractDoIpLogicAddressProps", k!"Identifiable", k!"MultilanguageReferrable", k!"Referrable", k!"ARObject"]
    .nil))))

-- M2/AUTOSARTemplates/SystemTemplate/DataMapping.py:208
def classTable99 : Bst (List Key) :=
 .node classTable97 k!"SenderRecRecordTypeMapping" [k!"SenderRecRecordTypeMapping", k!"SenderRecCompositeTypeMapping", k!"ARObject"] classTable98

-- M2/MSR/AsamHdo/ComputationMethod.py:194
def classTable100 : Bst (List Key) :=
 .node classTable96 k!"CompuScaleConstantContents" [k!"CompuScaleConstantContents", k!"CompuScaleContents", k!"ARObject"] classTable99

def classTable101 : Bst (List Key) :=
 (.node (.node (.node (.node (.node .nil
     -- M2/AUTOSARTemplates/CommonStructure/Timing/TimingConstraint/ExecutionOrderConstraint.py:157
     k!"EOCExecutableEntityRefGroup" [k!"EOCExecutableEntityRefGroup", k!"ARObject"]
     .nil)
    -- M2/AUTOSARTemplates/ECUCParameterDefTemplate.py:766
    k!"EcucDerivationSpecification" [k!"EcucDerivationSpecification", k!"ARObject"]
    .nil)
   -- M2/AUTOSARTemplates/ECUCParameterDefTemplate.py:2192
   k!"EcucMultilineStringParamDef" [k!"EcucMultilineStringParamDef", k!"EcucAbstractStringParamDef", k!"EcucParameterDef", k!"EcucCommonAttributes", k!"EcucDefinitionElement", k!"Identifiable", k!"MultilanguageReferrable", k!"Referrable", k!"ARObject"]
   (.node .nil
    -- M2/AUTOSARTemplates/ECUCParameterDefTemplate.py:616
    k!"EcucValueConfigurationClass" [k!"EcucValueConfigurationClass", k!"EcucAbstractConfigurationClass", k!"ARObject"]
    .nil))
  -- M2/AUTOSARTemplates/SystemTemplate/Transformer/__init__.py:228
  k!"EndToEndProfileBehaviorEnum" [k!"EndToEndProfileBehaviorEnum", k!"AREnum", k!"ARLiteral", k!"ARType"]
  (.node (.node .nil
    -- M2/AUTOSARTemplates/CommonStructure/Timing/TimingConstraint/ExecutionOrderConstraint.py:213
    k!"LetDataExchangeParadigmEnum" [k!"LetDataExchangeParadigmEnum"]
    .nil)
   -- M2/AUTOSARTemplates/CommonStructure/ModeDeclaration.py:683
   k!"ModeErrorReactionPolicyEnum" [k!"ModeErrorReactionPolicyEnum", k!"AREnum", k!"ARLiteral", k!"ARType"]
   (.node .nil
    -- M2/AUTOSARTemplates/CommonStructure/Constants/__init__.py:306
    k!"NumericalValueSpecification" [k!"NumericalValueSpecification", k!"ValueSpecification", k!"ARObject"]
    .nil)))
 -- M2/AUTOSARTemplates/CommonStructure/ServiceNeeds.py:197
 k!"NvBlockNeedsReliabilityEnum" [k!"NvBlockNeedsReliabilityEnum", k!"AREnum", k!"ARLiteral", k!"ARType"]
 (.node (.node (.node .nil
    -- M2/AUTOSARTemplates/SWComponentTemplate/Components/InstanceRefs.py:130
    k!"RModeInAtomicSwcInstanceRef" [k!"RModeInAtomicSwcInstanceRef", k!"AtpInstanceRef", k!"ARObject"]
    .nil)
   -- M2/AUTOSARTemplates/CommonStructure/Constants/__init__.py:904
   k!"ReferenceValueSpecification" [k!"ReferenceValueSpecification", k!"ValueSpecification", k!"ARObject"]
   (.node .nil
    -- M2/AUTOSARTemplates/CommonStructure/ServiceNeeds.py:519
    k!"RoleBasedDataTypeAssignment" [k!"RoleBasedDataTypeAssignment", k!"ARObject"]
    .nil))
  -- M2/AUTOSARTemplates/CommonStructure/Constants/__init__.py:1229
  k!"RuleBasedValueSpecification" [k!"RuleBasedValueSpecification", k!"ARObject"]
  (.node (.node .nil
    -- M2/AUTOSARTemplates/SystemTemplate/Fibex/FibexCore/CoreCommunication.py:2023
    k!"SecureCommunicationPropsSet" [k!"SecureCommunicationPropsSet", k!"FibexElement", k!"PackageableElement", k!"Identifiable", k!"MultilanguageReferrable", k!"Referrable", k!"ARObject"]
    .nil)
   -- M2/AUTOSARTemplates/SWComponentTemplate/Components/__init__.py:821
   k!"ServiceProxySwComponentType" [k!"ServiceProxySwComponentType", k!"AtomicSwComponentType", k!"SwComponentType", k!"AtpType", k!"AtpClassifier", k!"PackageableElement", k!"Identifiable", k!"MultilanguageReferrable", k!"Referrable", k!"ARObject"]
   (.node .nil
    -- M2/AUTOSARTemplates/SystemTemplate/Fibex/Fibex4Ethernet/NetworkEndpoint.py:254
    k!"TimeSyncClientConfiguration" [k!"TimeSyncClientConfiguration", k!"ARObject"]
    .nil))))

def classTable102 : Bst (List Key) :=
 (.node (.node (.node (.node .nil
    -- M2/AUTOSARTemplates/SystemTemplate/Fibex/FibexCore/Timing.py:203
    k!"TransmissionModeDeclaration" [k!"TransmissionModeDeclaration", k!"ARObject"]
    .nil)
   -- M2/AUTOSARTemplates/SWComponentTemplate/Datatype/Datatypes.py:73
   k!"ApplicationCompositeDataType" [k!"ApplicationCompositeDataType", k!"ApplicationDataType", k!"AutosarDataType", k!"AtpType", k!"AtpClassifier", k!"PackageableElement", k!"Identifiable", k!"MultilanguageReferrable", k!"Referrable", k!"ARObject"]
   (.node .nil
    -- M2/AUTOSARTemplates/SWComponentTemplate/Datatype/Datatypes.py:60
    k!"ApplicationPrimitiveDataType" [k!"ApplicationPrimitiveDataType", k!"ApplicationDataType", k!"AutosarDataType", k!"AtpType", k!"AtpClassifier", k!"PackageableElement", k!"Identifiable", k!"MultilanguageReferrable", k!"Referrable", k!"ARObject"]
    .nil))
  -- M2/AUTOSARTemplates/GenericStructure/VariantHandling/AttributeValueVariationPoints/__init__.py:15
  k!"AttributeValueVariationPoint" [k!"AttributeValueVariationPoint", k!"ARObject"]
  (.node (.node .nil
    -- M2/AUTOSARTemplates/BswModuleTemplate/BswBehavior/__init__.py:1972
    k!"BswQueuedDataReceptionPolicy" [k!"BswQueuedDataReceptionPolicy", k!"BswDataReceptionPolicy", k!"BswApiOptions", k!"ARObject"]
    .nil)
   -- M2/AUTOSARTemplates/SystemTemplate/Fibex/Fibex4Can/CanTopology.py:13
   k!"CanControllerFdConfiguration" [k!"CanControllerFdConfiguration", k!"ARObject"]
   (.node .nil
    -- M2/AUTOSARTemplates/SystemTemplate/Fibex/Fibex4Can/CanTopology.py:291
    k!"CanControllerXlConfiguration" [k!"CanControllerXlConfiguration", k!"ARObject"]
    .nil)))
 -- M2/AUTOSARTemplates/SWComponentTemplate/PortInterface/__init__.py:1128
 k!"ClientServerInterfaceMapping" [k!"ClientServerInterfaceMapping", k!"PortInterfaceMapping", k!"AtpBlueprintable", k!"PackageableElement", k!"Identifiable", k!"MultilanguageReferrable", k!"Referrable", k!"ARObject"]
 (.node (.node (.node .nil
    -- M2/AUTOSARTemplates/SWComponentTemplate/PortInterface/__init__.py:831
    k!"ClientServerOperationMapping" [k!"ClientServerOperationMapping", k!"ARObject"]
    .nil)
   -- M2/AUTOSARTemplates/SystemTemplate/InstanceRefs.py:73
   k!"ComponentInSystemInstanceRef" [k!"ComponentInSystemInstanceRef", k!"AtpInstanceRef", k!"ARObject"]
   (.node .nil
    -- M2/AUTOSARTemplates/CommonStructure/Constants/__init__.py:727
    k!"ConstantSpecificationMapping" [k!"ConstantSpecificationMapping", k!"ARObject"]
    .nil))
  -- M2/AUTOSARTemplates/SystemTemplate/Transformer/__init__.py:253
  k!"E2EProfileCompatibilityProps" [k!"E2EProfileCompatibilityProps", k!"ARElement", k!"PackageableElement", k!"Identifiable", k!"MultilanguageReferrable", k!"Referrable", k!"ARObject"]
  (.node (.node .nil
    -- M2/AUTOSARTemplates/ECUCDescriptionTemplate.py:436
    k!"EcucConfigurationVariantEnum" [k!"EcucConfigurationVariantEnum", k!"AREnum", k!"ARLiteral", k!"ARType"]
    .nil)
   -- M2/AUTOSARTemplates/ECUCParameterDefTemplate.py:349
   k!"EcucDestinationUriDefRefType" [k!"EcucDestinationUriDefRefType", k!"RefType", k!"ARObject"]
   (.node .nil
    -- M2/AUTOSARTemplates/ECUCParameterDefTemplate.py:1023
    k!"EcucSymbolicNameReferenceDef" [k!"EcucSymbolicNameReferenceDef", k!"EcucAbstractInternalReferenceDef", k!"EcucAbstractReferenceDef", k!"EcucCommonAttributes", k!"EcucDefinitionElement", k!"Identifiable", k!"MultilanguageReferrable", k!"Referrable", k!"ARObject"]
    .nil))))

-- M2/AUTOSARTemplates/SystemTemplate/Fibex/Fibex4Ethernet/NetworkEndpoint.py:291
def classTable103 : Bst (List Key) :=
 .node classTable101 k!"TimeSyncServerConfiguration" [k!"TimeSyncServerConfiguration", k!"Referrable", k!"ARObject"] classTable102

def classTable104 : Bst (List Key) :=
 (.node (.node (.node (.node (.node .nil
     -- M2/AUTOSARTemplates/SWComponentTemplate/SwcInternalBehavior/Trigger.py:59
     k!"ExternalTriggeringPointIdent" [k!"ExternalTriggeringPointIdent", k!"IdentCaption", k!"AtpStructureElement", k!"AtpBlueprintable", k!"PackageableElement", k!"Identifiable", k!"MultilanguageReferrable", k!"Referrable", k!"ARObject"]
     .nil)
    -- M2/AUTOSARTemplates/SWComponentTemplate/SwcInternalBehavior/RTEEvents.py:464
    k!"InternalTriggerOccurredEvent" [k!"InternalTriggerOccurredEvent", k!"RTEEvent", k!"AtpStructureElement", k!"AtpBlueprintable", k!"PackageableElement", k!"AbstractEvent", k!"Identifiable", k!"MultilanguageReferrable", k!"Referrable", k!"ARObject"]
    .nil)
   -- M2/AUTOSARTemplates/GenericStructure/VariantHandling/AttributeValueVariationPoints/__init__.py:155
   k!"NumericalValueVariationPoint" [k!"NumericalValueVariationPoint", k!"AbstractNumericalVariationPoint", k!"AttributeValueVariationPoint", k!"ARObject"]
   (.node .nil
    -- M2/AUTOSARTemplates/CommonStructure/ResourceConsumption/ExecutionTime/__init__.py:645
    k!"RoughEstimateOfExecutionTime" [k!"RoughEstimateOfExecutionTime", k!"ExecutionTime", k!"Identifiable", k!"MultilanguageReferrable", k!"Referrable", k!"ARObject"]
    .nil))
  -- M2/AUTOSARTemplates/SystemTemplate/DataMapping.py:282
  k!"SenderRecArrayElementMapping" [k!"SenderRecArrayElementMapping", k!"ARObject"]
  (.node (.node .nil
    -- M2/AUTOSARTemplates/SWComponentTemplate/PortInterface/__init__.py:346
    k!"ServerArgumentImplPolicyEnum" [k!"ServerArgumentImplPolicyEnum", k!"AREnum", k!"ARLiteral", k!"ARType"]
    .nil)
   -- M2/AUTOSARTemplates/GenericStructure/VariantHandling/AttributeValueVariationPoints/__init__.py:304
   k!"TimeValueValueVariationPoint" [k!"TimeValueValueVariationPoint", k!"AttributeValueVariationPoint", k!"ARObject"]
   (.node .nil
    -- M2/AUTOSARTemplates/SystemTemplate/DoIp.py:11
    k!"AbstractDoIpLogicAddressProps" [k!"AbstractDoIpLogicAddressProps", k!"Identifiable", k!"MultilanguageReferrable", k!"Referrable", k!"ARObject"]
    .nil)))
 -- M2/AUTOSARTemplates/SWComponentTemplate/Components/__init__.py:297
 k!"AbstractProvidedPortPrototype" [k!"AbstractProvidedPortPrototype", k!"PortPrototype", k!"AtpPrototype", k!"AtpBlueprintable", k!"PackageableElement", k!"Identifiable", k!"MultilanguageReferrable", k!"Referrable", k!"ARObject"]
 (.node (.node (.node .nil
    -- M2/AUTOSARTemplates/SWComponentTemplate/Components/__init__.py:342
    k!"AbstractRequiredPortPrototype" [k!"AbstractRequiredPortPrototype", k!"PortPrototype", k!"AtpPrototype", k!"AtpBlueprintable", k!"PackageableElement", k!"Identifiable", k!"MultilanguageReferrable", k!"Referrable", k!"ARObject"]
    .nil)
   -- M2/AUTOSARTemplates/CommonStructure/Constants/__init__.py:121
   k!"ApplicationValueSpecification" [k!"ApplicationValueSpecification", k!"CompositeRuleBasedValueArgument", k!"AbstractRuleBasedValueSpecification", k!"ValueSpecification", k!"ARObject"]
   (.node .nil
    -- M2/AUTOSARTemplates/BswModuleTemplate/BswBehavior/__init__.py:212
    k!"BswSynchronousServerCallPoint" [k!"BswSynchronousServerCallPoint", k!"BswModuleCallPoint", k!"Referrable", k!"ARObject"]
    .nil))
  -- M2/AUTOSARTemplates/SystemTemplate/Fibex/Fibex4Ethernet/EthernetTopology.py:96
  k!"CouplingPortStructuralElement" [k!"CouplingPortStructuralElement", k!"Identifiable", k!"MultilanguageReferrable", k!"Referrable", k!"ARObject"]
  (.node (.node .nil
    -- M2/AUTOSARTemplates/CommonStructure/ServiceNeeds.py:1265
    k!"DiagEventDebounceCounterBased" [k!"DiagEventDebounceCounterBased", k!"DiagEventDebounceAlgorithm", k!"Identifiable", k!"MultilanguageReferrable", k!"Referrable", k!"ARObject"]
    .nil)
   -- M2/AUTOSARTemplates/CommonStructure/ServiceNeeds.py:2587
   k!"DiagnosticOperationCycleNeeds" [k!"DiagnosticOperationCycleNeeds", k!"DiagnosticCapabilityElement", k!"ServiceNeeds", k!"Identifiable", k!"MultilanguageReferrable", k!"Referrable", k!"ARObject"]
   (.node .nil
    -- M2/AUTOSARTemplates/CommonStructure/ServiceNeeds.py:1056
    k!"DiagnosticProcessingStyleEnum" [k!"DiagnosticProcessingStyleEnum", k!"AREnum", k!"ARLiteral", k!"ARType"]
    .nil))))

def classTable105 : Bst (List Key) :=
 (.node (.node (.node (.node .nil
    -- M2/AUTOSARTemplates/SWComponentTemplate/Components/__init__.py:587
    k!"EcuAbstractionSwComponentType" [k!"EcuAbstractionSwComponentType", k!"AtomicSwComponentType", k!"SwComponentType", k!"AtpType", k!"AtpClassifier", k!"PackageableElement", k!"Identifiable", k!"MultilanguageReferrable", k!"Referrable", k!"ARObject"]
    .nil)
   -- M2/AUTOSARTemplates/ECUCDescriptionTemplate.py:357
   k!"EcucModuleConfigurationValues" [k!"EcucModuleConfigurationValues", k!"ARElement", k!"PackageableElement", k!"Identifiable", k!"MultilanguageReferrable", k!"Referrable", k!"ARObject"]
   (.node .nil
    -- M2/AUTOSARTemplates/SWComponentTemplate/EndToEndProtection.py:318
    k!"EndToEndProtectionISignalIPdu" [k!"EndToEndProtectionISignalIPdu", k!"ARObject"]
    .nil))
  -- M2/AUTOSARTemplates/SystemTemplate/Fibex/Fibex4Flexray/FlexrayTopology.py:534
  k!"FlexrayCommunicationConnector" [k!"FlexrayCommunicationConnector", k!"CommunicationConnector", k!"Identifiable", k!"MultilanguageReferrable", k!"Referrable", k!"ARObject"]
  (.node (.node .nil
    -- M2/AUTOSARTemplates/CommonStructure/ImplementationDataTypes.py:25
    k!"ImplementationDataTypeElement" [k!"ImplementationDataTypeElement", k!"AbstractImplementationDataTypeElement", k!"AtpStructureElement", k!"AtpBlueprintable", k!"PackageableElement", k!"Identifiable", k!"MultilanguageReferrable", k!"Referrable", k!"ARObject"]
    .nil)
   -- M2/AUTOSARTemplates/SWComponentTemplate/Composition/__init__.py:291
   k!"InstantiationTimingEventProps" [k!"InstantiationTimingEventProps", k!"InstantiationRTEEventProps", k!"ARObject"]
   (.node .nil
    -- M2/AUTOSARTemplates/CommonStructure/ModeDeclaration.py:456
    k!"ModeDeclarationGroupPrototype" [k!"ModeDeclarationGroupPrototype", k!"AtpPrototype", k!"AtpBlueprintable", k!"PackageableElement", k!"Identifiable", k!"MultilanguageReferrable", k!"Referrable", k!"ARObject"]
    .nil)))
 -- M2/AUTOSARTemplates/SWComponentTemplate/Composition/InstanceRefs.py:61
 k!"PPortInCompositionInstanceRef" [k!"PPortInCompositionInstanceRef", k!"PortInCompositionTypeInstanceRef", k!"AtpInstanceRef", k!"ARObject"]
 (.node (.node (.node .nil
    -- M2/AUTOSARTemplates/SWComponentTemplate/Composition/InstanceRefs.py:95
    k!"RPortInCompositionInstanceRef" [k!"RPortInCompositionInstanceRef", k!"PortInCompositionTypeInstanceRef", k!"AtpInstanceRef", k!"ARObject"]
    .nil)
   -- M2/AUTOSARTemplates/SWComponentTemplate/RPTScenario.py:142
   k!"RptExecutableEntityProperties" [k!"RptExecutableEntityProperties", k!"ARObject"]
   (.node .nil
    -- M2/AUTOSARTemplates/SystemTemplate/DataMapping.py:109
    k!"SenderRecCompositeTypeMapping" [k!"SenderRecCompositeTypeMapping", k!"ARObject"]
    .nil))
  -- M2/AUTOSARTemplates/SystemTemplate/DataMapping.py:126
  k!"SenderRecRecordElementMapping" [k!"SenderRecRecordElementMapping", k!"ARObject"]
  (.node (.node .nil
    -- M2/AUTOSARTemplates/SystemTemplate/DataMapping.py:43
    k!"SenderReceiverToSignalMapping" [k!"SenderReceiverToSignalMapping", k!"DataMapping", k!"ARObject"]
    .nil)
   -- M2/AUTOSARTemplates/SWComponentTemplate/Components/__init__.py:775
   k!"SensorActuatorSwComponentType" [k!"SensorActuatorSwComponentType", k!"AtomicSwComponentType", k!"SwComponentType", k!"AtpType", k!"AtpClassifier", k!"PackageableElement", k!"Identifiable", k!"MultilanguageReferrable", k!"Referrable", k!"ARObject"]
   (.node .nil
    -- M2/AUTOSARTemplates/CommonStructure/SignalServiceTranslation.py:221
    k!"SignalServiceTranslationProps" [k!"SignalServiceTranslationProps", k!"Identifiable", k!"MultilanguageReferrable", k!"Referrable", k!"ARObject"]
    .nil))))

-- M2/AUTOSARTemplates/CommonStructure/ServiceNeeds.py:2706
def classTable106 : Bst (List Key) :=
 .node classTable104 k!"DiagnosticUploadDownloadNeeds" [k!"DiagnosticUploadDownloadNeeds", k!"ServiceNeeds", k!"Identifiable", k!"MultilanguageReferrable", k!"Referrable", k!"ARObject"] classTable105

-- M2/AUTOSARTemplates/SystemTemplate/Fibex/Fibex4Ethernet/EthernetTopology.py:209
def classTable107 : Bst (List Key) :=
 .node classTable103 k!"EthernetPriorityRegeneration" [k!"EthernetPriorityRegeneration", k!"Referrable", k!"ARObject"] classTable106

-- M2/AUTOSARTemplates/SystemTemplate/DoIp.py:42
def classTable108 : Bst (List Key) :=
 .node classTable100 k!"DoIpLogicTesterAddressProps" [k!"DoIpLogicTesterAddressProps", k!"AbstractDoIpLogicAddressProps", k!"Identifiable", k!"MultilanguageReferrable", k!"Referrable", k!"ARObject"] classTable107

def classTable109 : Bst (List Key) :=
 (.node (.node (.node (.node (.node .nil
     -- M2/AUTOSARTemplates/CommonStructure/ImplementationDataTypes.py:121
     k!"AbstractImplementationDataType" [k!"AbstractImplementationDataType", k!"AutosarDataType", k!"AtpType", k!"AtpClassifier", k!"PackageableElement", k!"Identifiable", k!"MultilanguageReferrable", k!"Referrable", k!"ARObject"]
     .nil)
    -- M2/AUTOSARTemplates/BswModuleTemplate/BswBehavior/__init__.py:86
    k!"BswAsynchronousServerCallPoint" [k!"BswAsynchronousServerCallPoint", k!"BswModuleCallPoint", k!"Referrable", k!"ARObject"]
    .nil)
   -- M2/AUTOSARTemplates/BswModuleTemplate/BswBehavior/__init__.py:3290
   k!"BswTriggerDirectImplementation" [k!"BswTriggerDirectImplementation", k!"ARObject"]
   (.node .nil
    -- M2/AUTOSARTemplates/SystemTemplate/Transformer/__init__.py:988
    k!"CSTransformerErrorReactionEnum" [k!"CSTransformerErrorReactionEnum", k!"AREnum", k!"ARLiteral", k!"ARType"]
    .nil))
  -- M2/AUTOSARTemplates/SWComponentTemplate/Communication.py:156
  k!"CompositeNetworkRepresentation" [k!"CompositeNetworkRepresentation", k!"ARObject"]
  (.node (.node .nil
    -- M2/AUTOSARTemplates/CommonStructure/Timing/TimingConstraint/EventTriggeringConstraint.py:170
    k!"ConcretePatternEventTriggering" [k!"ConcretePatternEventTriggering", k!"EventTriggeringConstraint", k!"TimingConstraint", k!"Traceable", k!"Identifiable", k!"MultilanguageReferrable", k!"Referrable", k!"ARObject"]
    .nil)
   -- M2/AUTOSARTemplates/CommonStructure/ServiceNeeds.py:2353
   k!"DiagnosticEnableConditionNeeds" [k!"DiagnosticEnableConditionNeeds", k!"DiagnosticCapabilityElement", k!"ServiceNeeds", k!"Identifiable", k!"MultilanguageReferrable", k!"Referrable", k!"ARObject"]
   (.node .nil
    -- M2/AUTOSARTemplates/CommonStructure/Timing/TimingConstraint/ExecutionOrderConstraint.py:22
    k!"EOCExecutableEntityRefAbstract" [k!"EOCExecutableEntityRefAbstract", k!"Identifiable", k!"MultilanguageReferrable", k!"Referrable", k!"ARObject"]
    .nil)))
 -- M2/AUTOSARTemplates/ECUCParameterDefTemplate.py:430
 k!"EcucAbstractConfigurationClass" [k!"EcucAbstractConfigurationClass", k!"ARObject"]
 (.node (.node (.node .nil
    -- M2/AUTOSARTemplates/ECUCParameterDefTemplate.py:2206
    k!"EcucParameterDerivationFormula" [k!"EcucParameterDerivationFormula", k!"ARObject"]
    .nil)
   -- M2/AUTOSARTemplates/SystemTemplate/Fibex/Fibex4Ethernet/EthernetTopology.py:698
   k!"EthernetCommunicationConnector" [k!"EthernetCommunicationConnector", k!"CommunicationConnector", k!"Identifiable", k!"MultilanguageReferrable", k!"Referrable", k!"ARObject"]
   (.node .nil
    -- M2/AUTOSARTemplates/SystemTemplate/Fibex/Fibex4Flexray/FlexrayTopology.py:10
    k!"FlexrayCommunicationController" [k!"FlexrayCommunicationController", k!"CommunicationController", k!"Identifiable", k!"MultilanguageReferrable", k!"Referrable", k!"ARObject"]
    .nil))
  -- M2/MSR/Documentation/TextModel/MultilanguageData.py:37
  k!"MultiLanguageOverviewParagraph" [k!"MultiLanguageOverviewParagraph", k!"ARObject"]
  (.node (.node .nil
    -- M2/AUTOSARTemplates/CommonStructure/Constants/__init__.py:780
    k!"NotAvailableValueSpecification" [k!"NotAvailableValueSpecification", k!"ValueSpecification", k!"ARObject"]
    .nil)
   -- M2/AUTOSARTemplates/GenericStructure/VariantHandling/__init__.py:65
   k!"PostBuildVariantCriterionValue" [k!"PostBuildVariantCriterionValue", k!"ARObject"]
   (.node .nil
    -- M2/AUTOSARTemplates/SWComponentTemplate/SwcInternalBehavior/AccessCount.py:14
    k!"RteApiReturnValueProvisionEnum" [k!"RteApiReturnValueProvisionEnum", k!"AREnum", k!"ARLiteral", k!"ARType"]
    .nil))))

def classTable110 : Bst (List Key) :=
 (.node (.node (.node (.node (.node .nil
     -- M2/AUTOSARTemplates/SystemTemplate/Fibex/Fibex4Ethernet/EthernetCommunication.py:146
     k!"SocketConnectionIpduIdentifier" [k!"SocketConnectionIpduIdentifier", k!"ARObject"]
     .nil)
    -- M2/AUTOSARTemplates/CommonStructure/Timing/TimingConstraint/SynchronizationPointConstraint.py:17
    k!"SynchronizationPointConstraint" [k!"SynchronizationPointConstraint", k!"TimingConstraint", k!"Traceable", k!"Identifiable", k!"MultilanguageReferrable", k!"Referrable", k!"ARObject"]
    .nil)
   -- M2/AUTOSARTemplates/SWComponentTemplate/Communication.py:238
   k!"TransmissionModeDefinitionEnum" [k!"TransmissionModeDefinitionEnum", k!"AREnum", k!"ARLiteral", k!"ARType"]
   (.node .nil
    -- M2/AUTOSARTemplates/SystemTemplate/Fibex/Fibex4Ethernet/ServiceInstances.py:13
    k!"TransportProtocolConfiguration" [k!"TransportProtocolConfiguration", k!"ARObject"]
    .nil))
  -- M2/AUTOSARTemplates/CommonStructure/MeasurementCalibrationSupport/__init__.py:154
  k!"VariableAccessInEcuInstanceRef" [k!"VariableAccessInEcuInstanceRef", k!"AtpInstanceRef", k!"ARObject"]
  (.node (.node .nil
    -- M2/AUTOSARTemplates/SWComponentTemplate/Components/InstanceRefs.py:379
    k!"VariableInAtomicSwcInstanceRef" [k!"VariableInAtomicSwcInstanceRef", k!"AtpInstanceRef", k!"ARObject"]
    .nil)
   -- M2/AUTOSARTemplates/GenericStructure/VariantHandling/AttributeValueVariationPoints/__init__.py:133
   k!"AbstractNumericalVariationPoint" [k!"AbstractNumericalVariationPoint", k!"AttributeValueVariationPoint", k!"ARObject"]
   (.node .nil
    -- M2/AUTOSARTemplates/BswModuleTemplate/BswBehavior/__init__.py:1748
    k!"BswExternalTriggerOccurredEvent" [k!"BswExternalTriggerOccurredEvent", k!"BswScheduleEvent", k!"BswEvent", k!"AbstractEvent", k!"Identifiable", k!"MultilanguageReferrable", k!"Referrable", k!"ARObject"]
    .nil)))
 -- M2/AUTOSARTemplates/BswModuleTemplate/BswBehavior/__init__.py:1386
 k!"BswInternalTriggerOccurredEvent" [k!"BswInternalTriggerOccurredEvent", k!"BswScheduleEvent", k!"BswEvent", k!"AbstractEvent", k!"Identifiable", k!"MultilanguageReferrable", k!"Referrable", k!"ARObject"]
 (.node (.node (.node .nil
    -- M2/AUTOSARTemplates/CommonStructure/Constants/__init__.py:100
    k!"CompositeRuleBasedValueArgument" [k!"CompositeRuleBasedValueArgument", k!"AbstractRuleBasedValueSpecification", k!"ValueSpecification", k!"ARObject"]
    .nil)
   -- M2/AUTOSARTemplates/CommonStructure/Constants/__init__.py:759
   k!"ConstantSpecificationMappingSet" [k!"ConstantSpecificationMappingSet", k!"ARObject"]
   (.node .nil
    -- M2/AUTOSARTemplates/SystemTemplate/Transformer/__init__.py:1130
    k!"DataPrototypeInPortInterfaceRef" [k!"DataPrototypeInPortInterfaceRef", k!"DataPrototypeReference", k!"ARObject"]
    .nil))
  -- M2/AUTOSARTemplates/CommonStructure/ServiceNeeds.py:2559
  k!"DiagnosticMonitorUpdateKindEnum" [k!"DiagnosticMonitorUpdateKindEnum", k!"AREnum", k!"ARLiteral", k!"ARType"]
  (.node (.node .nil
    -- M2/AUTOSARTemplates/CommonStructure/ServiceNeeds.py:2657
    k!"DiagnosticStorageConditionNeeds" [k!"DiagnosticStorageConditionNeeds", k!"DiagnosticCapabilityElement", k!"ServiceNeeds", k!"Identifiable", k!"MultilanguageReferrable", k!"Referrable", k!"ARObject"]
    .nil)
   -- M2/AUTOSARTemplates/SystemTemplate/Fibex/Fibex4Ethernet/EthernetTopology.py:600
   k!"EthernetCommunicationController" [k!"EthernetCommunicationController", k!"CommunicationController", k!"Identifiable", k!"MultilanguageReferrable", k!"Referrable", k!"ARObject"]
   (.node .nil
    -- M2/AUTOSARTemplates/SWComponentTemplate/SwcInternalBehavior/ModeDeclarationGroup.py:118
    k!"IncludedModeDeclarationGroupSet" [k!"IncludedModeDeclarationGroupSet", k!"ARObject"]
    .nil))))

-- M2/AUTOSARTemplates/CommonStructure/ServiceNeeds.py:590
def classTable111 : Bst (List Key) :=
 .node classTable109 k!"ServiceDiagnosticRelevanceEnum" [k!"ServiceDiagnosticRelevanceEnum", k!"AREnum", k!"ARLiteral", k!"ARType"] classTable110

def classTable112 : Bst (List Key) :=
 (.node (.node (.node (.node (.node .nil
     -- M2/AUTOSARTemplates/SWComponentTemplate/Components/InstanceRefs.py:14
     k!"ModeGroupInAtomicSwcInstanceRef" [k!"ModeGroupInAtomicSwcInstanceRef", k!"AtpInstanceRef", k!"ARObject"]
     .nil)
    -- M2/AUTOSARTemplates/CommonStructure/ServiceNeeds.py:226
    k!"NvBlockNeedsWritingPriorityEnum" [k!"NvBlockNeedsWritingPriorityEnum", k!"AREnum", k!"ARLiteral", k!"ARType"]
    .nil)
   -- M2/AUTOSARTemplates/SWComponentTemplate/Composition/InstanceRefs.py:129
   k!"OperationInAtomicSwcInstanceRef" [k!"OperationInAtomicSwcInstanceRef", k!"AtpInstanceRef", k!"ARObject"]
   (.node .nil
    -- M2/AUTOSARTemplates/CommonStructure/StandardizationTemplate/BlueprintDedicated/PortPrototypeBlueprint.py:22
    k!"PortPrototypeBlueprintInitValue" [k!"PortPrototypeBlueprintInitValue", k!"ARObject"]
    .nil))
  -- M2/AUTOSARTemplates/SWComponentTemplate/Components/InstanceRefs.py:399
  k!"RVariableInAtomicSwcInstanceRef" [k!"RVariableInAtomicSwcInstanceRef", k!"VariableInAtomicSwcInstanceRef", k!"AtpInstanceRef", k!"ARObject"]
  (.node (.node .nil
    -- M2/AUTOSARTemplates/GenericStructure/GeneralTemplateClasses/PrimitiveTypes.py:390
    k!"SectionInitializationPolicyType" [k!"SectionInitializationPolicyType", k!"ARLiteral", k!"ARType"]
    .nil)
   -- M2/AUTOSARTemplates/CommonStructure/ServiceNeeds.py:3946
   k!"SecureOnBoardCommunicationNeeds" [k!"SecureOnBoardCommunicationNeeds", k!"ServiceNeeds", k!"Identifiable", k!"MultilanguageReferrable", k!"Referrable", k!"ARObject"]
   (.node .nil
    -- M2/AUTOSARTemplates/CommonStructure/ServiceNeeds.py:4124
    k!"SupervisedEntityCheckpointNeeds" [k!"SupervisedEntityCheckpointNeeds", k!"ServiceNeeds", k!"Identifiable", k!"MultilanguageReferrable", k!"Referrable", k!"ARObject"]
    .nil)))
 -- M2/AUTOSARTemplates/CommonStructure/Timing/TimingConstraint/SynchronizationTiming.py:63
 k!"SynchronizationTimingConstraint" [k!"SynchronizationTimingConstraint", k!"TimingConstraint", k!"Traceable", k!"Identifiable", k!"MultilanguageReferrable", k!"Referrable", k!"ARObject"]
 (.node (.node (.node .nil
    -- M2/AUTOSARTemplates/SystemTemplate/Transformer/__init__.py:1430
    k!"DataPrototypeTransformationProps" [k!"DataPrototypeTransformationProps", k!"ARObject"]
    .nil)
   -- M2/AUTOSARTemplates/CommonStructure/ServiceNeeds.py:1385
   k!"DiagEventDebounceMonitorInternal" [k!"DiagEventDebounceMonitorInternal", k!"DiagEventDebounceAlgorithm", k!"Identifiable", k!"MultilanguageReferrable", k!"Referrable", k!"ARObject"]
   (.node .nil
    -- M2/AUTOSARTemplates/CommonStructure/ServiceNeeds.py:1612
    k!"DtcStatusChangeNotificationNeeds" [k!"DtcStatusChangeNotificationNeeds", k!"DiagnosticCapabilityElement", k!"ServiceNeeds", k!"Identifiable", k!"MultilanguageReferrable", k!"Referrable", k!"ARObject"]
    .nil))
  -- M2/AUTOSARTemplates/ECUCParameterDefTemplate.py:1004
  k!"EcucAbstractExternalReferenceDef" [k!"EcucAbstractExternalReferenceDef", k!"EcucAbstractReferenceDef", k!"EcucCommonAttributes", k!"EcucDefinitionElement", k!"Identifiable", k!"MultilanguageReferrable", k!"Referrable", k!"ARObject"]
  (.node (.node .nil
    -- M2/AUTOSARTemplates/ECUCParameterDefTemplate.py:967
    k!"EcucAbstractInternalReferenceDef" [k!"EcucAbstractInternalReferenceDef", k!"EcucAbstractReferenceDef", k!"EcucCommonAttributes", k!"EcucDefinitionElement", k!"Identifiable", k!"MultilanguageReferrable", k!"Referrable", k!"ARObject"]
    .nil)
   -- M2/AUTOSARTemplates/CommonStructure/InternalBehavior.py:600
   k!"ExecutableEntityActivationReason" [k!"ExecutableEntityActivationReason", k!"ImplementationProps", k!"Referrable", k!"ARObject"]
   (.node .nil
    -- M2/AUTOSARTemplates/CommonStructure/Timing/TimingConstraint/ExecutionOrderConstraint.py:198
    k!"ExecutionOrderConstraintTypeEnum" [k!"ExecutionOrderConstraintTypeEnum"]
    .nil))))

def classTable113 : Bst (List Key) :=
 (.node (.node (.node (.node .nil
    -- M2/AUTOSARTemplates/SWComponentTemplate/NvBlockComponent.py:715
    k!"ModeSwitchEventTriggeredActivity" [k!"ModeSwitchEventTriggeredActivity", k!"ARObject"]
    .nil)
   -- M2/AUTOSARTemplates/SWComponentTemplate/Components/InstanceRefs.py:62
   k!"PModeGroupInAtomicSwcInstanceRef" [k!"PModeGroupInAtomicSwcInstanceRef", k!"ModeGroupInAtomicSwcInstanceRef", k!"AtpInstanceRef", k!"ARObject"]
   (.node .nil
    -- M2/AUTOSARTemplates/SWComponentTemplate/Composition/InstanceRefs.py:176
    k!"POperationInAtomicSwcInstanceRef" [k!"POperationInAtomicSwcInstanceRef", k!"OperationInAtomicSwcInstanceRef", k!"AtpInstanceRef", k!"ARObject"]
    .nil))
  -- M2/AUTOSARTemplates/SWComponentTemplate/Composition/InstanceRefs.py:14
  k!"PortInCompositionTypeInstanceRef" [k!"PortInCompositionTypeInstanceRef", k!"AtpInstanceRef", k!"ARObject"]
  (.node (.node .nil
    -- M2/AUTOSARTemplates/SWComponentTemplate/Components/InstanceRefs.py:96
    k!"RModeGroupInAtomicSWCInstanceRef" [k!"RModeGroupInAtomicSWCInstanceRef", k!"ModeGroupInAtomicSwcInstanceRef", k!"AtpInstanceRef", k!"ARObject"]
    .nil)
   -- M2/AUTOSARTemplates/SWComponentTemplate/Composition/InstanceRefs.py:210
   k!"ROperationInAtomicSwcInstanceRef" [k!"ROperationInAtomicSwcInstanceRef", k!"OperationInAtomicSwcInstanceRef", k!"AtpInstanceRef", k!"ARObject"]
   (.node .nil
    -- M2/AUTOSARTemplates/CommonStructure/SignalServiceTranslation.py:336
    k!"SignalServiceTranslationPropsSet" [k!"SignalServiceTranslationPropsSet", k!"Identifiable", k!"MultilanguageReferrable", k!"Referrable", k!"ARObject"]
    .nil)))
 -- M2/AUTOSARTemplates/SystemTemplate/Fibex/Fibex4Can/CanTopology.py:937
 k!"AbstractCanCommunicationConnector" [k!"AbstractCanCommunicationConnector", k!"CommunicationConnector", k!"Identifiable", k!"MultilanguageReferrable", k!"Referrable", k!"ARObject"]
 (.node (.node (.node .nil
    -- M2/AUTOSARTemplates/SWComponentTemplate/SwcInternalBehavior/__init__.py:58
    k!"AsynchronousServerCallResultPoint" [k!"AsynchronousServerCallResultPoint", k!"AbstractAccessPoint", k!"AtpStructureElement", k!"AtpBlueprintable", k!"PackageableElement", k!"Identifiable", k!"MultilanguageReferrable", k!"Referrable", k!"ARObject"]
    .nil)
   -- M2/AUTOSARTemplates/SystemTemplate/Transformer/__init__.py:289
   k!"EndToEndTransformationDescription" [k!"EndToEndTransformationDescription", k!"TransformationDescription", k!"Describable", k!"ARObject"]
   (.node .nil
    -- M2/MSR/DataDictionary/AuxillaryObjects.py:8
    k!"MemoryAllocationKeywordPolicyType" [k!"MemoryAllocationKeywordPolicyType", k!"AREnum", k!"ARLiteral", k!"ARType"]
    .nil))
  -- M2/AUTOSARTemplates/BswModuleTemplate/BswBehavior/__init__.py:2088
  k!"RoleBasedBswModuleEntryAssignment" [k!"RoleBasedBswModuleEntryAssignment", k!"ARObject"]
  (.node (.node .nil
    -- M2/AUTOSARTemplates/SystemTemplate/Fibex/FibexCore/CoreCommunication.py:2177
    k!"SecureCommunicationFreshnessProps" [k!"SecureCommunicationFreshnessProps", k!"Identifiable", k!"MultilanguageReferrable", k!"Referrable", k!"ARObject"]
    .nil)
   -- M2/AUTOSARTemplates/CommonStructure/ServiceNeeds.py:4614
   k!"WarningIndicatorRequestedBitNeeds" [k!"WarningIndicatorRequestedBitNeeds", k!"ServiceNeeds", k!"Identifiable", k!"MultilanguageReferrable", k!"Referrable", k!"ARObject"]
   (.node .nil
    -- M2/AUTOSARTemplates/SystemTemplate/Fibex/Fibex4Can/CanTopology.py:888
    k!"AbstractCanCommunicationController" [k!"AbstractCanCommunicationController", k!"CommunicationController", k!"Identifiable", k!"MultilanguageReferrable", k!"Referrable", k!"ARObject"]
    .nil))))

-- M2/AUTOSARTemplates/SystemTemplate/Fibex/Fibex4Flexray/FlexrayCommunication.py:23
def classTable114 : Bst (List Key) :=
 .node classTable112 k!"FlexrayAbsolutelyScheduledTiming" [k!"FlexrayAbsolutelyScheduledTiming", k!"ARObject"] classTable113

-- M2/AUTOSARTemplates/SWComponentTemplate/ApplicationAttributes/__init__.py:321
def classTable115 : Bst (List Key) :=
 .node classTable111 k!"IoHwAbstractionServerAnnotation" [k!"IoHwAbstractionServerAnnotation", k!"GeneralAnnotation", k!"ARObject"] classTable114

def classTable116 : Bst (List Key) :=
 (.node (.node (.node (.node (.node .nil
     -- M2/AUTOSARTemplates/SWComponentTemplate/Components/__init__.py:646
     k!"ComplexDeviceDriverSwComponentType" [k!"ComplexDeviceDriverSwComponentType", k!"AtomicSwComponentType", k!"SwComponentType", k!"AtpType", k!"AtpClassifier", k!"PackageableElement", k!"Identifiable", k!"MultilanguageReferrable", k!"Referrable", k!"ARObject"]
     .nil)
    -- M2/AUTOSARTemplates/CommonStructure/ServiceNeeds.py:1580
    k!"DiagnosticClearDtcNotificationEnum" [k!"DiagnosticClearDtcNotificationEnum", k!"AREnum", k!"ARLiteral", k!"ARType"]
    .nil)
   -- M2/AUTOSARTemplates/CommonStructure/ServiceNeeds.py:2314
   k!"DiagnosticDenominatorConditionEnum" [k!"DiagnosticDenominatorConditionEnum", k!"AREnum", k!"ARLiteral", k!"ARType"]
   (.node .nil
    -- M2/AUTOSARTemplates/CommonStructure/ServiceNeeds.py:2637
    k!"DiagnosticRequestFileTransferNeeds" [k!"DiagnosticRequestFileTransferNeeds", k!"ServiceNeeds", k!"Identifiable", k!"MultilanguageReferrable", k!"Referrable", k!"ARObject"]
    .nil))
  -- M2/AUTOSARTemplates/ECUCParameterDefTemplate.py:486
  k!"EcucMultiplicityConfigurationClass" [k!"EcucMultiplicityConfigurationClass", k!"EcucAbstractConfigurationClass", k!"ARObject"]
  (.node (.node .nil
    -- M2/AUTOSARTemplates/SystemTemplate/Transformer/__init__.py:1575
    k!"EndToEndTransformationComSpecProps" [k!"EndToEndTransformationComSpecProps", k!"TransformationComSpecProps", k!"Describable", k!"ARObject"]
    .nil)
   -- M2/AUTOSARTemplates/SystemTemplate/Transformer/__init__.py:1505
   k!"EndToEndTransformationISignalProps" [k!"EndToEndTransformationISignalProps", k!"TransformationISignalProps", k!"Describable", k!"ARObject"]
   (.node .nil
    -- M2/AUTOSARTemplates/CommonStructure/ServiceNeeds.py:3455
    k!"J1939RmIncomingRequestServiceNeeds" [k!"J1939RmIncomingRequestServiceNeeds", k!"ServiceNeeds", k!"Identifiable", k!"MultilanguageReferrable", k!"Referrable", k!"ARObject"]
    .nil)))
 -- M2/AUTOSARTemplates/CommonStructure/ServiceNeeds.py:3475
 k!"J1939RmOutgoingRequestServiceNeeds" [k!"J1939RmOutgoingRequestServiceNeeds", k!"ServiceNeeds", k!"Identifiable", k!"MultilanguageReferrable", k!"Referrable", k!"ARObject"]
 (.node (.node (.node .nil
    -- M2/AUTOSARTemplates/SWComponentTemplate/Components/InstanceRefs.py:301
    k!"PTriggerInAtomicSwcTypeInstanceRef" [k!"PTriggerInAtomicSwcTypeInstanceRef", k!"TriggerInAtomicSwcInstanceRef", k!"AtpInstanceRef", k!"ARObject"]
    .nil)
   -- M2/AUTOSARTemplates/GenericStructure/VariantHandling/AttributeValueVariationPoints/__init__.py:265
   k!"PositiveIntegerValueVariationPoint" [k!"PositiveIntegerValueVariationPoint", k!"AttributeValueVariationPoint", k!"ARObject"]
   (.node .nil
    -- M2/AUTOSARTemplates/SystemTemplate/DataMapping.py:378
    k!"SenderReceiverToSignalGroupMapping" [k!"SenderReceiverToSignalGroupMapping", k!"DataMapping", k!"ARObject"]
    .nil))
  -- M2/AUTOSARTemplates/CommonStructure/SignalServiceTranslation.py:126
  k!"SignalServiceTranslationEventProps" [k!"SignalServiceTranslationEventProps", k!"Identifiable", k!"MultilanguageReferrable", k!"Referrable", k!"ARObject"]
  (.node (.node .nil
    -- M2/AUTOSARTemplates/SWComponentTemplate/Communication.py:344
    k!"TransmissionAcknowledgementRequest" [k!"TransmissionAcknowledgementRequest", k!"ARObject"]
    .nil)
   -- M2/AUTOSARTemplates/SWComponentTemplate/SwcInternalBehavior/InstanceRefsUsage.py:127
   k!"VariableInAtomicSWCTypeInstanceRef" [k!"VariableInAtomicSWCTypeInstanceRef", k!"AtpInstanceRef", k!"ARObject"]
   (.node .nil
    -- M2/AUTOSARTemplates/CommonStructure/Constants/__init__.py:85
    k!"AbstractRuleBasedValueSpecification" [k!"AbstractRuleBasedValueSpecification", k!"ValueSpecification", k!"ARObject"]
    .nil))))

def classTable117 : Bst (List Key) :=
 (.node (.node (.node (.node .nil
    -- M2/AUTOSARTemplates/SWComponentTemplate/PortInterface/__init__.py:802
    k!"ClientServerApplicationErrorMapping" [k!"ClientServerApplicationErrorMapping", k!"ARObject"]
    .nil)
   -- M2/AUTOSARTemplates/CommonStructure/ServiceNeeds.py:904
   k!"DiagnosticCommunicationManagerNeeds" [k!"DiagnosticCommunicationManagerNeeds", k!"DiagnosticCapabilityElement", k!"ServiceNeeds", k!"Identifiable", k!"MultilanguageReferrable", k!"Referrable", k!"ARObject"]
   (.node .nil
    -- M2/AUTOSARTemplates/SWComponentTemplate/EndToEndProtection.py:280
    k!"EndToEndProtectionVariablePrototype" [k!"EndToEndProtectionVariablePrototype", k!"ARObject"]
    .nil))
  -- M2/AUTOSARTemplates/CommonStructure/ServiceNeeds.py:3152
  k!"FunctionInhibitionAvailabilityNeeds" [k!"FunctionInhibitionAvailabilityNeeds", k!"ServiceNeeds", k!"Identifiable", k!"MultilanguageReferrable", k!"Referrable", k!"ARObject"]
  (.node (.node .nil
    -- M2/AUTOSARTemplates/SystemTemplate/Fibex/FibexCore/Timing.py:8
    k!"ModeDrivenTransmissionModeCondition" [k!"ModeDrivenTransmissionModeCondition", k!"ARObject"]
    .nil)
   -- M2/AUTOSARTemplates/SWComponentTemplate/SwcInternalBehavior/InstanceRefsUsage.py:266
   k!"ParameterInAtomicSWCTypeInstanceRef" [k!"ParameterInAtomicSWCTypeInstanceRef", k!"AtpInstanceRef", k!"ARObject"]
   (.node .nil
    -- M2/AUTOSARTemplates/CommonStructure/SignalServiceTranslation.py:22
    k!"SignalServiceTranslationControlEnum" [k!"SignalServiceTranslationControlEnum", k!"AREnum", k!"ARLiteral", k!"ARType"]
    .nil)))
 -- M2/AUTOSARTemplates/GenericStructure/VariantHandling/AttributeValueVariationPoints/__init__.py:285
 k!"UnlimitedIntegerValueVariationPoint" [k!"UnlimitedIntegerValueVariationPoint", k!"AttributeValueVariationPoint", k!"ARObject"]
 (.node (.node (.node .nil
    -- M2/AUTOSARTemplates/BswModuleTemplate/BswBehavior/__init__.py:289
    k!"BswAsynchronousServerCallResultPoint" [k!"BswAsynchronousServerCallResultPoint", k!"BswModuleCallPoint", k!"Referrable", k!"ARObject"]
    .nil)
   -- M2/AUTOSARTemplates/CommonStructure/Constants/__init__.py:633
   k!"CompositeRuleBasedValueSpecification" [k!"CompositeRuleBasedValueSpecification", k!"AbstractRuleBasedValueSpecification", k!"ValueSpecification", k!"ARObject"]
   (.node .nil
    -- M2/AUTOSARTemplates/CommonStructure/ModeDeclaration.py:50
    k!"ModeDeclarationGroupPrototypeMapping" [k!"ModeDeclarationGroupPrototypeMapping", k!"ARObject"]
    .nil))
  -- M2/AUTOSARTemplates/CommonStructure/Constants/__init__.py:882
  k!"NumericalRuleBasedValueSpecification" [k!"NumericalRuleBasedValueSpecification", k!"AbstractRuleBasedValueSpecification", k!"ValueSpecification", k!"ARObject"]
  (.node (.node .nil
    -- M2/AUTOSARTemplates/CommonStructure/SignalServiceTranslation.py:50
    k!"SignalServiceTranslationElementProps" [k!"SignalServiceTranslationElementProps", k!"Identifiable", k!"MultilanguageReferrable", k!"Referrable", k!"ARObject"]
    .nil)
   -- M2/AUTOSARTemplates/CommonStructure/SwcBswMapping.py:280
   k!"SwcBswSynchronizedModeGroupPrototype" [k!"SwcBswSynchronizedModeGroupPrototype", k!"ARObject"]
   (.node .nil
    -- M2/AUTOSARTemplates/SWComponentTemplate/PortInterface/__init__.py:1159
    k!"VariableAndParameterInterfaceMapping" [k!"VariableAndParameterInterfaceMapping", k!"PortInterfaceMapping", k!"AtpBlueprintable", k!"PackageableElement", k!"Identifiable", k!"MultilanguageReferrable", k!"Referrable", k!"ARObject"]
    .nil))))

-- M2/AUTOSARTemplates/SystemTemplate/RteEventToOsTaskMapping.py:8
def classTable118 : Bst (List Key) :=
 .node classTable116 k!"AppOsTaskProxyToEcuTaskProxyMapping" [k!"AppOsTaskProxyToEcuTaskProxyMapping", k!"Identifiable", k!"MultilanguageReferrable", k!"Referrable", k!"ARObject"] classTable117

def classTable119 : Bst (List Key) :=
 (.node (.node (.node (.node (.node .nil
     -- M2/AUTOSARTemplates/CommonStructure/ImplementationDataTypes.py:11
     k!"AbstractImplementationDataTypeElement" [k!"AbstractImplementationDataTypeElement", k!"AtpStructureElement", k!"AtpBlueprintable", k!"PackageableElement", k!"Identifiable", k!"MultilanguageReferrable", k!"Referrable", k!"ARObject"]
     .nil)
    -- M2/AUTOSARTemplates/BswModuleTemplate/BswBehavior/__init__.py:1032
    k!"BswAsynchronousServerCallReturnsEvent" [k!"BswAsynchronousServerCallReturnsEvent", k!"BswScheduleEvent", k!"BswEvent", k!"AbstractEvent", k!"Identifiable", k!"MultilanguageReferrable", k!"Referrable", k!"ARObject"]
    .nil)
   -- M2/AUTOSARTemplates/CommonStructure/ServiceNeeds.py:2726
   k!"DiagnosticsCommunicationSecurityNeeds" [k!"DiagnosticsCommunicationSecurityNeeds", k!"ServiceNeeds", k!"Identifiable", k!"MultilanguageReferrable", k!"Referrable", k!"ARObject"]
   (.node .nil
    -- M2/AUTOSARTemplates/ECUCParameterDefTemplate.py:2150
    k!"EcucDestinationUriNestingContractEnum" [k!"EcucDestinationUriNestingContractEnum", k!"AREnum", k!"ARLiteral", k!"ARType"]
    .nil))
  -- M2/AUTOSARTemplates/SWComponentTemplate/Composition/InstanceRefs.py:244
  k!"InstanceEventInCompositionInstanceRef" [k!"InstanceEventInCompositionInstanceRef", k!"AtpInstanceRef", k!"ARObject"]
  (.node (.node .nil
    -- M2/AUTOSARTemplates/BswModuleTemplate/BswOverview/InstanceRefs/__init__.py:10
    k!"ModeInBswModuleDescriptionInstanceRef" [k!"ModeInBswModuleDescriptionInstanceRef", k!"AtpInstanceRef", k!"ARObject"]
    .nil)
   -- M2/AUTOSARTemplates/SWComponentTemplate/Communication.py:1392
   k!"UserDefinedTransformationComSpecProps" [k!"UserDefinedTransformationComSpecProps", k!"TransformationComSpecProps", k!"Describable", k!"ARObject"]
   (.node .nil
    -- M2/AUTOSARTemplates/CommonStructure/Constants/__init__.py:509
    k!"ApplicationRuleBasedValueSpecification" [k!"ApplicationRuleBasedValueSpecification", k!"CompositeRuleBasedValueArgument", k!"AbstractRuleBasedValueSpecification", k!"ValueSpecification", k!"ARObject"]
    .nil)))
 -- M2/AUTOSARTemplates/SystemTemplate/Fibex/Fibex4Can/CanTopology.py:813
 k!"CanControllerConfigurationRequirements" [k!"CanControllerConfigurationRequirements", k!"AbstractCanCommunicationControllerAttributes", k!"ARObject"]
 (.node (.node (.node .nil
    -- M2/AUTOSARTemplates/CommonStructure/ServiceNeeds.py:2944
    k!"DoIpRoutingActivationConfirmationNeeds" [k!"DoIpRoutingActivationConfirmationNeeds", k!"DoIpServiceNeeds", k!"ServiceNeeds", k!"Identifiable", k!"MultilanguageReferrable", k!"Referrable", k!"ARObject"]
    .nil)
   -- M2/AUTOSARTemplates/SWComponentTemplate/Components/InstanceRefs.py:433
   k!"InnerPortGroupInCompositionInstanceRef" [k!"InnerPortGroupInCompositionInstanceRef", k!"AtpInstanceRef", k!"ARObject"]
   (.node .nil
    -- M2/AUTOSARTemplates/SWComponentTemplate/ImplicitCommunicationBehavior/InstanceRefs.py:227
    k!"RunnableEntityInCompositionInstanceRef" [k!"RunnableEntityInCompositionInstanceRef", k!"AtpInstanceRef", k!"ARObject"]
    .nil))
  -- M2/AUTOSARTemplates/SystemTemplate/Fibex/FibexCore/CoreCommunication.py:2139
  k!"SecureCommunicationAuthenticationProps" [k!"SecureCommunicationAuthenticationProps", k!"Identifiable", k!"MultilanguageReferrable", k!"Referrable", k!"ARObject"]
  (.node (.node .nil
    -- M2/AUTOSARTemplates/SWComponentTemplate/Datatype/DataPrototypes.py:154
    k!"ApplicationCompositeElementDataPrototype" [k!"ApplicationCompositeElementDataPrototype", k!"DataPrototype", k!"AtpPrototype", k!"AtpBlueprintable", k!"PackageableElement", k!"Identifiable", k!"MultilanguageReferrable", k!"Referrable", k!"ARObject"]
    .nil)
   -- M2/AUTOSARTemplates/SystemTemplate/Fibex/Fibex4Can/CanTopology.py:166
   k!"CanControllerFdConfigurationRequirements" [k!"CanControllerFdConfigurationRequirements", k!"ARObject"]
   (.node .nil
    -- M2/AUTOSARTemplates/SystemTemplate/Fibex/Fibex4Can/CanTopology.py:464
    k!"CanControllerXlConfigurationRequirements" [k!"CanControllerXlConfigurationRequirements", k!"ARObject"]
    .nil))))

def classTable120 : Bst (List Key) :=
 (.node (.node (.node (.node .nil
    -- M2/AUTOSARTemplates/CommonStructure/ServiceNeeds.py:2843
    k!"DoIpRoutingActivationAuthenticationNeeds" [k!"DoIpRoutingActivationAuthenticationNeeds", k!"DoIpServiceNeeds", k!"ServiceNeeds", k!"Identifiable", k!"MultilanguageReferrable", k!"Referrable", k!"ARObject"]
    .nil)
   -- M2/AUTOSARTemplates/SystemTemplate/InstanceRefs.py:9
   k!"VariableDataPrototypeInSystemInstanceRef" [k!"VariableDataPrototypeInSystemInstanceRef", k!"AtpInstanceRef", k!"ARObject"]
   (.node .nil
    -- M2/AUTOSARTemplates/SystemTemplate/SWmapping.py:47
    k!"ApplicationPartitionToEcuPartitionMapping" [k!"ApplicationPartitionToEcuPartitionMapping", k!"Identifiable", k!"MultilanguageReferrable", k!"Referrable", k!"ARObject"]
    .nil))
  -- M2/AUTOSARTemplates/SWComponentTemplate/SwcInternalBehavior/InstanceRefsUsage.py:13
  k!"ArVariableInImplementationDataInstanceRef" [k!"ArVariableInImplementationDataInstanceRef", k!"ARObject"]
  (.node (.node .nil
    -- M2/AUTOSARTemplates/SystemTemplate/NetworkManagement.py:397
    k!"J1939NmAddressConfigurationCapabilityEnum" [k!"J1939NmAddressConfigurationCapabilityEnum", k!"AREnum", k!"ARLiteral", k!"ARType"]
    .nil)
   -- M2/AUTOSARTemplates/CommonStructure/MeasurementCalibrationSupport/__init__.py:632
   k!"ImplementationElementInParameterInstanceRef" [k!"ImplementationElementInParameterInstanceRef", k!"ARObject"]
   (.node .nil
    -- M2/AUTOSARTemplates/AdaptivePlatform/PlatformModuleDeployment/AdaptiveModule/PlatformModuleEthernetEndpointConfiguration.py:16
    k!"PlatformModuleEthernetEndpointConfiguration" [k!"PlatformModuleEthernetEndpointConfiguration", k!"ARElement", k!"PackageableElement", k!"Identifiable", k!"MultilanguageReferrable", k!"Referrable", k!"ARObject"]
    .nil)))
 -- M2/AUTOSARTemplates/SystemTemplate/Fibex/Fibex4Can/CanTopology.py:733
 k!"AbstractCanCommunicationControllerAttributes" [k!"AbstractCanCommunicationControllerAttributes", k!"ARObject"]
 (.node (.node (.node .nil
    -- M2/AUTOSARTemplates/SWComponentTemplate/ImplicitCommunicationBehavior/InstanceRefs.py:333
    k!"VariableDataPrototypeInCompositionInstanceRef" [k!"VariableDataPrototypeInCompositionInstanceRef", k!"AtpInstanceRef", k!"ARObject"]
    .nil)
   -- M2/AUTOSARTemplates/SystemTemplate/Transformer/__init__.py:1260
   k!"DataPrototypeInClientServerInterfaceInstanceRef" [k!"DataPrototypeInClientServerInterfaceInstanceRef", k!"AtpInstanceRef", k!"DataPrototypeInPortInterfaceRef", k!"DataPrototypeReference", k!"ARObject"]
   (.node .nil
    -- M2/AUTOSARTemplates/SystemTemplate/Transformer/__init__.py:1355
    k!"ImplementationDataTypeElementInPortInterfaceRef" [k!"ImplementationDataTypeElementInPortInterfaceRef", k!"DataPrototypeReference", k!"ARObject"]
    .nil))
  -- M2/AUTOSARTemplates/SWComponentTemplate/ImplicitCommunicationBehavior/InstanceRefs.py:15
  k!"InnerDataPrototypeGroupInCompositionInstanceRef" [k!"InnerDataPrototypeGroupInCompositionInstanceRef", k!"AtpInstanceRef", k!"ARObject"]
  (.node (.node .nil
    -- M2/AUTOSARTemplates/SWComponentTemplate/ImplicitCommunicationBehavior/InstanceRefs.py:121
    k!"InnerRunnableEntityGroupInCompositionInstanceRef" [k!"InnerRunnableEntityGroupInCompositionInstanceRef", k!"AtpInstanceRef", k!"ARObject"]
    .nil)
   -- M2/AUTOSARTemplates/SystemTemplate/Transformer/__init__.py:1165
   k!"DataPrototypeInSenderReceiverInterfaceInstanceRef" [k!"DataPrototypeInSenderReceiverInterfaceInstanceRef", k!"AtpInstanceRef", k!"DataPrototypeInPortInterfaceRef", k!"DataPrototypeReference", k!"ARObject"]
   (.node .nil
    -- M2/AUTOSARTemplates/SWComponentTemplate/PortInterface/InstanceRefs.py:11
    k!"ApplicationCompositeElementInPortInterfaceInstanceRef" [k!"ApplicationCompositeElementInPortInterfaceInstanceRef", k!"AtpInstanceRef", k!"ARObject"]
    .nil))))

-- M2/AUTOSARTemplates/CommonStructure/ServiceNeeds.py:747
def classTable121 : Bst (List Key) :=
 .node classTable119 k!"DiagnosticServiceRequestCallbackTypeEnum" [k!"DiagnosticServiceRequestCallbackTypeEnum", k!"AREnum", k!"ARLiteral", k!"ARType"] classTable120

-- M2/AUTOSARTemplates/CommonStructure/ServiceNeeds.py:4590
def classTable122 : Bst (List Key) :=
 .node classTable118 k!"VerificationStatusIndicationModeEnum" [k!"VerificationStatusIndicationModeEnum", k!"AREnum", k!"ARLiteral", k!"ARType"] classTable121

-- M2/AUTOSARTemplates/SWComponentTemplate/SwcInternalBehavior/RTEEvents.py:83
def classTable123 : Bst (List Key) :=
 .node classTable115 k!"AsynchronousServerCallReturnsEvent" [k!"AsynchronousServerCallReturnsEvent", k!"RTEEvent", k!"AtpStructureElement", k!"AtpBlueprintable", k!"PackageableElement", k!"AbstractEvent", k!"Identifiable", k!"MultilanguageReferrable", k!"Referrable", k!"ARObject"] classTable122

-- M2/AUTOSARTemplates/SWComponentTemplate/Components/InstanceRefs.py:184
def classTable124 : Bst (List Key) :=
 .node classTable108 k!"TriggerInAtomicSwcInstanceRef" [k!"TriggerInAtomicSwcInstanceRef", k!"AtpInstanceRef", k!"ARObject"] classTable123

-- M2/AUTOSARTemplates/BswModuleTemplate/BswBehavior/__init__.py:2066
def classTable125 : Bst (List Key) :=
 .node classTable93 k!"BswServiceDependencyIdent" [k!"BswServiceDependencyIdent", k!"IdentCaption", k!"AtpStructureElement", k!"AtpBlueprintable", k!"PackageableElement", k!"Identifiable", k!"MultilanguageReferrable", k!"Referrable", k!"ARObject"] classTable124

-- M2/AUTOSARTemplates/SWComponentTemplate/SwcInternalBehavior/IncludedDataTypes.py:12
def classTable126 : Bst (List Key) :=
 .node classTable62 k!"IncludedDataTypeSet" [k!"IncludedDataTypeSet", k!"ARObject"] classTable125

/-- class name with its ancestors -/
def classTable : Bst (List Key) := classTable126

end Verif.Gen
