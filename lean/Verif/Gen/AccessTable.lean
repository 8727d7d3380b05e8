import Verif.Model.Access
import Verif.Model.Bst
/-! Generated by `tools/gen_access.py` from `/repo/src/armodel/models/**`: the constructor steps and the
methods of every class with the shape of their body; each class cites its file and line, each method its line. -/
namespace Verif.Gen
open Verif Verif.Model

def accTable00 : Bst (ClassAcc) :=
 (.node (.node (.node (.node (.node .nil
     -- M2/MSR/AsamHdo/SpecialData.py:9
     k!"Sd" ⟨false, some (0, [.sup 0, .field k!"gid" .none, .field k!"value" .none, .field k!"xmlSpace" .none]),
     [(k!"getGID", .get k!"gid") /- 38 -/,
      (k!"setGID", .set k!"gid" true) /- 44 -/,
      (k!"getValue", .get k!"value") /- 52 -/,
      (k!"setValue", .set k!"value" true) /- 58 -/,
      (k!"getXmlSpace", .get k!"xmlSpace") /- 66 -/,
      (k!"setXmlSpace", .set k!"xmlSpace" true) /- 72 -/]⟩
     .nil)
    -- M2/MSR/Documentation/TextModel/InlineTextElements.py:24
    k!"Tt" ⟨false, some (0, [.sup 0, .field k!"value" .none, .field k!"texRender" .none, .field k!"type" .none]),
     [(k!"getValue", .get k!"value") /- 53 -/,
      (k!"setValue", .set k!"value" true) /- 62 -/,
      (k!"getTexRender", .get k!"texRender") /- 73 -/,
      (k!"setTexRender", .set k!"texRender" true) /- 82 -/,
      (k!"getType", .get k!"type") /- 93 -/,
      (k!"setType", .set k!"type" true) /- 102 -/]⟩
    .nil)
   -- M2/MSR/Documentation/BlockElements/Figure.py:99
   k!"Map" ⟨false, some (0, [.sup 0]),
     []⟩
   (.node .nil
    -- M2/AUTOSARTemplates/SystemTemplate/Fibex/FibexCore/CoreCommunication.py:375
    k!"Pdu" ⟨true, some (2, [.guard k!"Pdu", .sup 2, .field k!"hasDynamicLength" .none, .field k!"length" .none]),
     [(k!"setHasDynamicLength", .set k!"hasDynamicLength" true) /- 402 -/,
      (k!"getHasDynamicLength", .get k!"hasDynamicLength") /- 411 -/,
      (k!"setLength", .set k!"length" true) /- 417 -/,
      (k!"getLength", .get k!"length") /- 426 -/]⟩
    .nil))
  -- M2/MSR/AsamHdo/SpecialData.py:115
  k!"Sdf" ⟨false, some (0, [.sup 0, .field k!"gid" .none, .field k!"value" .none]),
     [(k!"getGID", .get k!"gid") /- 139 -/,
      (k!"setGID", .set k!"gid" true) /- 145 -/,
      (k!"getValue", .get k!"value") /- 153 -/,
      (k!"setValue", .set k!"value" true) /- 159 -/]⟩
  (.node (.node .nil
    -- M2/MSR/AsamHdo/SpecialData.py:278
    k!"Sdg" ⟨false, some (0, [.sup 0, .field k!"gid" .none, .field k!"sdgCaption" .none, .field k!"sdgContentsType" .none]),
     [(k!"getGID", .get k!"gid") /- 307 -/,
      (k!"setGID", .set k!"gid" true) /- 313 -/,
      (k!"getSdgCaption", .get k!"sdgCaption") /- 321 -/,
      (k!"createSdgCaption", .other) /- 327 -/,
      (k!"getSdgContentsType", .get k!"sdgContentsType") /- 335 -/,
      (k!"setSdgContentsType", .set k!"sdgContentsType" true) /- 341 -/]⟩
    .nil)
   -- M2/AUTOSARTemplates/CommonStructure/Implementation.py:142
   k!"Code" ⟨false, some (2, [.sup 2, .field k!"artifactDescriptors" .nil, .field k!"callbackHeaderRefs" .nil]),
     [(k!"addArtifactDescriptor", .add k!"artifactDescriptors" true false) /- 174 -/,
      (k!"getArtifactDescriptors", .other) /- 189 -/,
      (k!"getCallbackHeaderRefs", .get k!"callbackHeaderRefs") /- 206 -/,
      (k!"addCallbackHeaderRef", .add k!"callbackHeaderRefs" true false) /- 216 -/]⟩
   (.node .nil
    -- M2/AUTOSARTemplates/SystemTemplate/Fibex/FibexCore/CoreCommunication.py:433
    k!"IPdu" ⟨true, some (2, [.guard k!"IPdu", .sup 2, .field k!"containedIPduProps" .none]),
     [(k!"getContainedIPduProps", .get k!"containedIPduProps") /- 455 -/,
      (k!"setContainedIPduProps", .set k!"containedIPduProps" true) /- 461 -/]⟩
    .nil)))
 -- M2/MSR/Documentation/TextModel/BlockElements/ListElements.py:32
 k!"Item" ⟨false, some (0, [.sup 0, .field k!"itemContents" .none]),
     [(k!"getItemContents", .get k!"itemContents") /- 47 -/,
      (k!"setItemContents", .set k!"itemContents" false) /- 50 -/]⟩
 (.node (.node (.node .nil
    -- M2/AUTOSARTemplates/SystemTemplate/Fibex/FibexCore/CoreCommunication.py:1033
    k!"NPdu" ⟨false, some (2, [.sup 2]),
     []⟩
    .nil)
   -- M2/MSR/Documentation/TextModel/BlockElements/Note.py:54
   k!"Note" ⟨false, some (0, [.sup 0, .field k!"label" .none, .field k!"noteText" .none, .field k!"noteType" .none]),
     [(k!"getLabel", .get k!"label") /- 83 -/,
      (k!"setLabel", .set k!"label" true) /- 92 -/,
      (k!"getNoteText", .get k!"noteText") /- 103 -/,
      (k!"setNoteText", .set k!"noteText" true) /- 112 -/,
      (k!"getNoteType", .get k!"noteType") /- 123 -/,
      (k!"setNoteType", .set k!"noteType" true) /- 132 -/]⟩
   (.node .nil
    -- M2/MSR/AsamHdo/Units.py:179
    k!"Unit" ⟨false, some (2, [.sup 2, .field k!"displayName" .none, .field k!"factorSiToUnit" .none, .field k!"offsetSiToUnit" .none, .field k!"physicalDimensionRef" .none]),
     [(k!"getDisplayName", .get k!"displayName") /- 213 -/,
      (k!"setDisplayName", .set k!"displayName" true) /- 219 -/,
      (k!"getFactorSiToUnit", .get k!"factorSiToUnit") /- 227 -/,
      (k!"setFactorSiToUnit", .set k!"factorSiToUnit" true) /- 233 -/,
      (k!"getOffsetSiToUnit", .get k!"offsetSiToUnit") /- 241 -/,
      (k!"setOffsetSiToUnit", .set k!"offsetSiToUnit" true) /- 247 -/,
      (k!"getPhysicalDimensionRef", .get k!"physicalDimensionRef") /- 255 -/,
      (k!"setPhysicalDimensionRef", .set k!"physicalDimensionRef" true) /- 261 -/]⟩
    .nil))
  -- M2/MSR/AsamHdo/ComputationMethod.py:53
  k!"Compu" ⟨false, some (0, [.sup 0, .field k!"compuContent" .none, .field k!"compuDefaultValue" .none]),
     [(k!"getCompuContent", .get k!"compuContent") /- 72 -/,
      (k!"setCompuContent", .set k!"compuContent" false) /- 75 -/,
      (k!"getCompuDefaultValue", .get k!"compuDefaultValue") /- 79 -/,
      (k!"setCompuDefaultValue", .set k!"compuDefaultValue" false) /- 82 -/]⟩
  (.node (.node .nil
    -- M2/AUTOSARTemplates/AdaptivePlatform/ApplicationDesign/PortInterface/Field.py:7
    k!"Field" ⟨false, some (2, [.sup 2, .field k!"hasGetter" .none, .field k!"hasNotifier" .none, .field k!"hasSetter" .none]),
     [(k!"getHasGetter", .get k!"hasGetter") /- 37 -/,
      (k!"setHasGetter", .set k!"hasGetter" false) /- 40 -/,
      (k!"getHasNotifier", .get k!"hasNotifier") /- 44 -/,
      (k!"setHasNotifier", .set k!"hasNotifier" false) /- 47 -/,
      (k!"getHasSetter", .get k!"hasSetter") /- 51 -/,
      (k!"setHasSetter", .set k!"hasSetter" false) /- 54 -/]⟩
    .nil)
   -- M2/AUTOSARTemplates/GenericStructure/GeneralTemplateClasses/PrimitiveTypes.py:224
   k!"Float" ⟨false, some (0, [.sup 0]),
     []⟩
   (.node .nil
    -- M2/AUTOSARTemplates/SystemTemplate/Fibex/FibexCore/CoreCommunication.py:93
    k!"Frame" ⟨true, some (2, [.guard k!"Frame", .sup 2, .field k!"frameLength" .none, .field k!"pduToFrameMappings" .nil]),
     [(k!"getFrameLength", .get k!"frameLength") /- 116 -/,
      (k!"setFrameLength", .set k!"frameLength" false) /- 119 -/,
      (k!"createPduToFrameMapping", .other) /- 123 -/,
      (k!"getPduToFrameMappings", .other) /- 130 -/]⟩
    .nil))))

def accTable01 : Bst (ClassAcc) :=
 (.node (.node (.node (.node (.node .nil
     -- M2/MSR/Documentation/TextModel/LanguageDataModel.py:17
     k!"LEnum" ⟨false, some (0, [.sup 1]),
     []⟩
     .nil)
    -- M2/AUTOSARTemplates/GenericStructure/GeneralTemplateClasses/PrimitiveTypes.py:938
    k!"Limit" ⟨false, some (0, [.sup 0, .field k!"intervalType" .none, .field k!"value" .none]),
     [(k!"getIntervalType", .get k!"intervalType") /- 964 -/,
      (k!"setIntervalType", .set k!"intervalType" true) /- 973 -/,
      (k!"getValue", .get k!"value") /- 986 -/,
      (k!"setValue", .set k!"value" true) /- 995 -/]⟩
    .nil)
   -- M2/AUTOSARTemplates/SystemTemplate/NetworkManagement.py:802
   k!"NmEcu" ⟨false, some (2, [.sup 2, .field k!"busDependentNmEcus" .nil, .field k!"ecuInstanceRef" .none, .field k!"nmBusSynchronizationEnabled" .none, .field k!"nmComControlEnabled" .none, .field k!"nmCoordinator" .none, .field k!"nmCycletimeMainFunction" .none, .field k!"nmNodeDetectionEnabled" .none, .field k!"nmNodeIdEnabled" .none, .field k!"nmPduRxIndicationEnabled" .none, .field k!"nmRemoteSleepIndEnabled" .none, .field k!"nmRepeatMsgIndEnabled" .none, .field k!"nmStateChangeIndEnabled" .none, .field k!"nmUserDataEnabled" .none]),
     [(k!"getBusDependentNmEcus", .get k!"busDependentNmEcus") /- 855 -/,
      (k!"addBusDependentNmEcu", .add k!"busDependentNmEcus" true false) /- 858 -/,
      (k!"getEcuInstanceRef", .get k!"ecuInstanceRef") /- 863 -/,
      (k!"setEcuInstanceRef", .set k!"ecuInstanceRef" true) /- 866 -/,
      (k!"getNmBusSynchronizationEnabled", .get k!"nmBusSynchronizationEnabled") /- 871 -/,
      (k!"setNmBusSynchronizationEnabled", .set k!"nmBusSynchronizationEnabled" true) /- 874 -/,
      (k!"getNmComControlEnabled", .get k!"nmComControlEnabled") /- 879 -/,
      (k!"setNmComControlEnabled", .set k!"nmComControlEnabled" true) /- 882 -/,
      (k!"getNmCoordinator", .get k!"nmCoordinator") /- 887 -/,
      (k!"setNmCoordinator", .set k!"nmCoordinator" true) /- 890 -/,
      (k!"getNmCycletimeMainFunction", .get k!"nmCycletimeMainFunction") /- 895 -/,
      (k!"setNmCycletimeMainFunction", .set k!"nmCycletimeMainFunction" true) /- 898 -/,
      (k!"getNmNodeDetectionEnabled", .get k!"nmNodeDetectionEnabled") /- 903 -/,
      (k!"setNmNodeDetectionEnabled", .set k!"nmNodeDetectionEnabled" true) /- 906 -/,
      (k!"getNmNodeIdEnabled", .get k!"nmNodeIdEnabled") /- 911 -/,
      (k!"setNmNodeIdEnabled", .set k!"nmNodeIdEnabled" true) /- 914 -/,
      (k!"getNmPduRxIndicationEnabled", .get k!"nmPduRxIndicationEnabled") /- 919 -/,
      (k!"setNmPduRxIndicationEnabled", .set k!"nmPduRxIndicationEnabled" true) /- 922 -/,
      (k!"getNmRemoteSleepIndEnabled", .get k!"nmRemoteSleepIndEnabled") /- 927 -/,
      (k!"setNmRemoteSleepIndEnabled", .set k!"nmRemoteSleepIndEnabled" true) /- 930 -/,
      (k!"getNmRepeatMsgIndEnabled", .get k!"nmRepeatMsgIndEnabled") /- 935 -/,
      (k!"setNmRepeatMsgIndEnabled", .set k!"nmRepeatMsgIndEnabled" true) /- 938 -/,
      (k!"getNmStateChangeIndEnabled", .get k!"nmStateChangeIndEnabled") /- 943 -/,
      (k!"setNmStateChangeIndEnabled", .set k!"nmStateChangeIndEnabled" true) /- 946 -/,
      (k!"getNmUserDataEnabled", .get k!"nmUserDataEnabled") /- 951 -/,
      (k!"setNmUserDataEnabled", .set k!"nmUserDataEnabled" true) /- 954 -/]⟩
   (.node .nil
    -- M2/AUTOSARTemplates/SystemTemplate/Fibex/FibexCore/CoreCommunication.py:972
    k!"NmPdu" ⟨false, some (2, [.sup 2, .field k!"iSignalToIPduMappings" .nil, .field k!"nmDataInformation" .none, .field k!"nmVoteInformation" .none, .field k!"unusedBitPattern" .none]),
     [(k!"getISignalToIPduMappings", .get k!"iSignalToIPduMappings") /- 998 -/,
      (k!"createISignalToIPduMapping", .other) /- 1001 -/,
      (k!"getNmDataInformation", .get k!"nmDataInformation") /- 1008 -/,
      (k!"setNmDataInformation", .set k!"nmDataInformation" true) /- 1011 -/,
      (k!"getNmVoteInformation", .get k!"nmVoteInformation") /- 1016 -/,
      (k!"setNmVoteInformation", .set k!"nmVoteInformation" true) /- 1019 -/,
      (k!"getUnusedBitPattern", .get k!"unusedBitPattern") /- 1024 -/,
      (k!"setUnusedBitPattern", .set k!"unusedBitPattern" true) /- 1027 -/]⟩
    .nil))
  -- M2/AUTOSARTemplates/SystemTemplate/Fibex/Fibex4Ethernet/ServiceInstances.py:143
  k!"TcpTp" ⟨false, some (0, [.sup 0, .field k!"keepAliveInterval" .none, .field k!"keepAliveProbesMax" .none, .field k!"keepAlives" .none, .field k!"keepAliveTime" .none, .field k!"naglesAlgorithm" .none, .field k!"receiveWindowMin" .none, .field k!"tcpRetransmissionTimeout" .none, .field k!"tcpTpPort" .none]),
     [(k!"getKeepAliveInterval", .get k!"keepAliveInterval") /- 181 -/,
      (k!"setKeepAliveInterval", .set k!"keepAliveInterval" false) /- 184 -/,
      (k!"getKeepAliveProbesMax", .get k!"keepAliveProbesMax") /- 188 -/,
      (k!"setKeepAliveProbesMax", .set k!"keepAliveProbesMax" false) /- 191 -/,
      (k!"getKeepAlives", .get k!"keepAlives") /- 195 -/,
      (k!"setKeepAlives", .set k!"keepAlives" false) /- 198 -/,
      (k!"getKeepAliveTime", .get k!"keepAliveTime") /- 202 -/,
      (k!"setKeepAliveTime", .set k!"keepAliveTime" false) /- 205 -/,
      (k!"getNaglesAlgorithm", .get k!"naglesAlgorithm") /- 209 -/,
      (k!"setNaglesAlgorithm", .set k!"naglesAlgorithm" false) /- 212 -/,
      (k!"getReceiveWindowMin", .get k!"receiveWindowMin") /- 216 -/,
      (k!"setReceiveWindowMin", .set k!"receiveWindowMin" false) /- 219 -/,
      (k!"getTcpRetransmissionTimeout", .get k!"tcpRetransmissionTimeout") /- 223 -/,
      (k!"setTcpRetransmissionTimeout", .set k!"tcpRetransmissionTimeout" false) /- 226 -/,
      (k!"getTcpTpPort", .get k!"tcpTpPort") /- 230 -/,
      (k!"setTcpTpPort", .set k!"tcpTpPort" false) /- 233 -/]⟩
  (.node (.node .nil
    -- M2/AUTOSARTemplates/SystemTemplate/Fibex/Fibex4Ethernet/ServiceInstances.py:118
    k!"UdpTp" ⟨false, some (0, [.sup 0, .field k!"udpTpPort" .none]),
     [(k!"getUdpTpPort", .get k!"udpTpPort") /- 135 -/,
      (k!"setUdpTpPort", .set k!"udpTpPort" false) /- 138 -/]⟩
    .nil)
   -- M2/AUTOSARTemplates/GenericStructure/GeneralTemplateClasses/PrimitiveTypes.py:298
   k!"AREnum" ⟨false, some (1, [.sup 0, .field k!"enumValues" .arg]),
     [(k!"getEnumValues", .get k!"enumValues") /- 315 -/,
      (k!"setEnumValues", .set k!"enumValues" false) /- 324 -/,
      (k!"validateEnumValue", .other) /- 337 -/]⟩
   (.node .nil
    -- M2/MSR/Documentation/TextModel/BlockElements/ListElements.py:55
    k!"ARList" ⟨false, some (0, [.sup 0, .field k!"items" .nil, .field k!"type" .none]),
     [(k!"getItems", .get k!"items") /- 74 -/,
      (k!"addItem", .add k!"items" false false) /- 77 -/,
      (k!"getType", .get k!"type") /- 81 -/,
      (k!"setType", .set k!"type" false) /- 84 -/]⟩
    .nil)))
 -- M2/AUTOSARTemplates/GenericStructure/GeneralTemplateClasses/PrimitiveTypes.py:12
 k!"ARType" ⟨true, some (0, [.field k!"timestamp" .none, .field k!"uuid" .none, .field k!"_value" .none]),
     [(k!"getValue", .other) /- 40 -/,
      (k!"setValue", .other) /- 49 -/,
      (k!"getText", .other) /- 64 -/]⟩
 (.node (.node (.node .nil
    -- M2/AUTOSARTemplates/EcuResourceTemplate/HwElementCategory.py:25
    k!"HwType" ⟨false, some (2, [.sup 2]),
     []⟩
    .nil)
   -- M2/AUTOSARTemplates/CommonStructure/Implementation.py:449
   k!"Linker" ⟨false, some (2, [.sup 2, .field k!"name" .none, .field k!"options" .none, .field k!"vendor" .none, .field k!"version" .none]),
     [(k!"getName", .get k!"name") /- 488 -/,
      (k!"setName", .set k!"name" true) /- 497 -/,
      (k!"getOptions", .get k!"options") /- 512 -/,
      (k!"setOptions", .set k!"options" true) /- 521 -/,
      (k!"getVendor", .get k!"vendor") /- 536 -/,
      (k!"setVendor", .set k!"vendor" true) /- 545 -/,
      (k!"getVersion", .get k!"version") /- 560 -/,
      (k!"setVersion", .set k!"version" true) /- 569 -/]⟩
   (.node .nil
    -- M2/AUTOSARTemplates/SystemTemplate/NetworkManagement.py:135
    k!"NmNode" ⟨true, some (2, [.guard k!"NmNode", .sup 2, .field k!"controllerRef" .none, .field k!"nmCoordCluster" .none, .field k!"nmCoordinatorRole" .none, .field k!"nmIfEcuRef" .none, .field k!"nmNodeId" .none, .field k!"nmPassiveModeEnabled" .none, .field k!"rxNmPduRefs" .nil, .field k!"txNmPduRefs" .nil]),
     [(k!"getControllerRef", .get k!"controllerRef") /- 192 -/,
      (k!"setControllerRef", .set k!"controllerRef" true) /- 198 -/,
      (k!"getNmCoordCluster", .get k!"nmCoordCluster") /- 207 -/,
      (k!"setNmCoordCluster", .set k!"nmCoordCluster" true) /- 213 -/,
      (k!"getNmCoordinatorRole", .get k!"nmCoordinatorRole") /- 222 -/,
      (k!"setNmCoordinatorRole", .set k!"nmCoordinatorRole" true) /- 228 -/,
      (k!"getNmIfEcuRef", .get k!"nmIfEcuRef") /- 237 -/,
      (k!"setNmIfEcuRef", .set k!"nmIfEcuRef" true) /- 243 -/,
      (k!"getNmNodeId", .get k!"nmNodeId") /- 252 -/,
      (k!"setNmNodeId", .set k!"nmNodeId" true) /- 258 -/,
      (k!"getNmPassiveModeEnabled", .get k!"nmPassiveModeEnabled") /- 267 -/,
      (k!"setNmPassiveModeEnabled", .set k!"nmPassiveModeEnabled" true) /- 273 -/,
      (k!"addRxNmPduRef", .add k!"rxNmPduRefs" false false) /- 282 -/,
      (k!"getRxNmPduRefs", .get k!"rxNmPduRefs") /- 289 -/,
      (k!"addTxNmPduRef", .add k!"txNmPduRefs" false false) /- 295 -/,
      (k!"getTxNmPduRefs", .get k!"txNmPduRefs") /- 302 -/]⟩
    .nil))
  -- M2/AUTOSARTemplates/GenericStructure/GeneralTemplateClasses/PrimitiveTypes.py:352
  k!"String" ⟨false, some (0, [.sup 0]),
     []⟩
  (.node (.node .nil
    -- M2/AUTOSARTemplates/SystemTemplate/__init__.py:496
    k!"System" ⟨false, some (2, [.sup 2, .field k!"clientIdDefinitionSetRefs" .nil, .field k!"containerIPduHeaderByteOrder" .none, .field k!"ecuExtractVersion" .none, .field k!"fibexElements" .nil, .field k!"interpolationRoutineMappingSetRefs" .nil, .field k!"j1939SharedAddressClusters" .nil, .field k!"mappings" .nil, .field k!"pncVectorLength" .none, .field k!"pncVectorOffset" .none, .field k!"rootSoftwareComposition" .none, .field k!"swClusterRefs" .nil, .field k!"systemDocumentation" .nil, .field k!"systemVersion" .none]),
     [(k!"getClientIdDefinitionSetRefs", .get k!"clientIdDefinitionSetRefs") /- 550 -/,
      (k!"addClientIdDefinitionSetRefs", .add k!"clientIdDefinitionSetRefs" false false) /- 553 -/,
      (k!"getContainerIPduHeaderByteOrder", .get k!"containerIPduHeaderByteOrder") /- 557 -/,
      (k!"setContainerIPduHeaderByteOrder", .set k!"containerIPduHeaderByteOrder" false) /- 560 -/,
      (k!"getEcuExtractVersion", .get k!"ecuExtractVersion") /- 564 -/,
      (k!"setEcuExtractVersion", .set k!"ecuExtractVersion" false) /- 567 -/,
      (k!"getFibexElementRefs", .get k!"fibexElements") /- 571 -/,
      (k!"addFibexElementRef", .add k!"fibexElements" true false) /- 575 -/,
      (k!"getInterpolationRoutineMappingSetRefs", .get k!"interpolationRoutineMappingSetRefs") /- 580 -/,
      (k!"addInterpolationRoutineMappingSetRefs", .add k!"interpolationRoutineMappingSetRefs" false false) /- 583 -/,
      (k!"getJ1939SharedAddressClusters", .get k!"j1939SharedAddressClusters") /- 587 -/,
      (k!"setJ1939SharedAddressClusters", .add k!"j1939SharedAddressClusters" false false) /- 590 -/,
      (k!"getMappings", .other) /- 594 -/,
      (k!"getSystemMappings", .other) /- 597 -/,
      (k!"createSystemMapping", .other) /- 600 -/,
      (k!"getPncVectorLength", .get k!"pncVectorLength") /- 606 -/,
      (k!"setPncVectorLength", .set k!"pncVectorLength" false) /- 609 -/,
      (k!"getPncVectorOffset", .get k!"pncVectorOffset") /- 613 -/,
      (k!"setPncVectorOffset", .set k!"pncVectorOffset" false) /- 616 -/,
      (k!"getRootSoftwareComposition", .get k!"rootSoftwareComposition") /- 620 -/,
      (k!"createRootSoftwareComposition", .other) /- 623 -/,
      (k!"getSwClusterRefs", .get k!"swClusterRefs") /- 630 -/,
      (k!"addSwClusterRef", .add k!"swClusterRefs" false false) /- 633 -/,
      (k!"getSystemDocumentation", .get k!"systemDocumentation") /- 637 -/,
      (k!"setSystemDocumentation", .set k!"systemDocumentation" false) /- 640 -/,
      (k!"getSystemVersion", .get k!"systemVersion") /- 644 -/,
      (k!"setSystemVersion", .set k!"systemVersion" false) /- 647 -/]⟩
    .nil)
   -- M2/MSR/Documentation/Chapters.py:422
   k!"Topic1" ⟨false, some (2, [.sup 2, .field k!"helpEntry" .none, .field k!"topicContent" .none]),
     [(k!"setHelpEntry", .set k!"helpEntry" true) /- 448 -/,
      (k!"getHelpEntry", .get k!"helpEntry") /- 461 -/,
      (k!"setTopicContent", .set k!"topicContent" true) /- 470 -/,
      (k!"getTopicContent", .get k!"topicContent") /- 483 -/]⟩
   (.node .nil
    -- M2/AUTOSARTemplates/SystemTemplate/Fibex/Fibex4Ethernet/ServiceInstances.py:83
    k!"TpPort" ⟨false, some (0, [.sup 0, .field k!"dynamicallyAssigned" .none, .field k!"portNumber" .none]),
     [(k!"getDynamicallyAssigned", .get k!"dynamicallyAssigned") /- 103 -/,
      (k!"setDynamicallyAssigned", .set k!"dynamicallyAssigned" false) /- 106 -/,
      (k!"getPortNumber", .get k!"portNumber") /- 110 -/,
      (k!"setPortNumber", .set k!"portNumber" false) /- 113 -/]⟩
    .nil))))

-- M2/AUTOSARTemplates/EcuResourceTemplate/__init__.py:114
def accTable02 : Bst (ClassAcc) :=
 .node accTable00 k!"HwPin" ⟨false, some (2, [.sup 2, .field k!"functionNames" .nil, .field k!"packagingPinName" .none, .field k!"pinNumber" .none]),
     [(k!"createFunctionName", .other) /- 145 -/,
      (k!"addFunctionName", .add k!"functionNames" false true) /- 151 -/,
      (k!"getFunctionNames", .get k!"functionNames") /- 157 -/,
      (k!"setFunctionNames", .set k!"functionNames" true) /- 161 -/,
      (k!"getPackagingPinName", .get k!"packagingPinName") /- 167 -/,
      (k!"setPackagingPinName", .set k!"packagingPinName" true) /- 171 -/,
      (k!"getPinNumber", .get k!"pinNumber") /- 177 -/,
      (k!"setPinNumber", .set k!"pinNumber" true) /- 181 -/]⟩ accTable01

def accTable03 : Bst (ClassAcc) :=
 (.node (.node (.node (.node (.node .nil
     -- M2/AUTOSARTemplates/AutosarTopLevelStructure/__init__.py:354
     k!"AUTOSAR" ⟨false, some (0, [.sup 0]),
     [(k!"getInstance", .other) /- 369 -/,
      (k!"new", .other) /- 374 -/]⟩
     .nil)
    -- M2/AUTOSARTemplates/GenericStructure/AbstractStructure.py:189
    k!"AtpType" ⟨true, some (2, [.guard k!"AtpType", .sup 2]),
     []⟩
    .nil)
   -- M2/AUTOSARTemplates/GenericStructure/GeneralTemplateClasses/PrimitiveTypes.py:736
   k!"Boolean" ⟨false, some (0, [.sup 0]),
     []⟩
   (.node .nil
    -- M2/MSR/Documentation/BlockElements/__init__.py:12
    k!"Caption" ⟨false, some (2, [.sup 2, .field k!"desc" .none]),
     [(k!"getDesc", .get k!"desc") /- 31 -/,
      (k!"setDesc", .set k!"desc" true) /- 40 -/]⟩
    .nil))
  -- M2/MSR/Documentation/Chapters.py:23
  k!"Chapter" ⟨false, some (2, [.sup 2, .field k!"chapterModel" .none, .field k!"helpEntry" .none]),
     [(k!"setHelpEntry", .set k!"helpEntry" true) /- 47 -/,
      (k!"getHelpEntry", .get k!"helpEntry") /- 60 -/,
      (k!"setChapterModel", .set k!"chapterModel" true) /- 69 -/,
      (k!"getChapterModel", .get k!"chapterModel") /- 82 -/]⟩
  (.node (.node .nil
    -- M2/AUTOSARTemplates/SystemTemplate/Fibex/FibexCore/CoreCommunication.py:1046
    k!"DcmIPdu" ⟨false, some (2, [.sup 2, .field k!"diagPduType" .none]),
     [(k!"getDiagPduType", .get k!"diagPduType") /- 1062 -/,
      (k!"setDiagPduType", .set k!"diagPduType" false) /- 1065 -/]⟩
    .nil)
   -- M2/MSR/Documentation/TextModel/BlockElements/ListElements.py:338
   k!"DefItem" ⟨false, some (0, [.sup 0, .field k!"def_doc" .none, .field k!"helpEntry" .none]),
     [(k!"getDef", .get k!"def_doc") /- 362 -/,
      (k!"setDef", .set k!"def_doc" true) /- 368 -/,
      (k!"getHelpEntry", .get k!"helpEntry") /- 376 -/,
      (k!"setHelpEntry", .set k!"helpEntry" true) /- 382 -/]⟩
   (.node .nil
    -- M2/MSR/Documentation/TextModel/BlockElements/ListElements.py:391
    k!"DefList" ⟨false, some (0, [.sup 0, .field k!"defItems" .nil]),
     [(k!"addDefItem", .add k!"defItems" true false) /- 410 -/,
      (k!"getDefItems", .get k!"defItems") /- 421 -/]⟩
    .nil)))
 -- M2/AUTOSARTemplates/CommonStructure/FlatMap.py:168
 k!"FlatMap" ⟨false, some (2, [.sup 2, .field k!"instances" .nil]),
     [(k!"getInstances", .other) /- 192 -/,
      (k!"createFlatInstanceDescriptor", .other) /- 201 -/]⟩
 (.node (.node (.node .nil
    -- M2/AUTOSARTemplates/SystemTemplate/Fibex/Fibex4Multiplatform.py:251
    k!"Gateway" ⟨false, some (2, [.sup 2, .field k!"ecuRef" .none, .field k!"frameMappings" .nil, .field k!"iPduMappings" .nil, .field k!"signalMappings" .nil]),
     [(k!"getEcuRef", .get k!"ecuRef") /- 276 -/,
      (k!"setEcuRef", .set k!"ecuRef" false) /- 279 -/,
      (k!"getFrameMappings", .get k!"frameMappings") /- 283 -/,
      (k!"addFrameMapping", .add k!"frameMappings" false false) /- 286 -/,
      (k!"getIPduMappings", .get k!"iPduMappings") /- 290 -/,
      (k!"addIPduMapping", .add k!"iPduMappings" false false) /- 293 -/,
      (k!"getSignalMappings", .get k!"signalMappings") /- 297 -/,
      (k!"addSignalMapping", .add k!"signalMappings" false false) /- 300 -/]⟩
    .nil)
   -- M2/MSR/Documentation/BlockElements/Figure.py:20
   k!"Graphic" ⟨false, some (0, [.sup 0, .field k!"editfit" .none, .field k!"editHeight" .none, .field k!"editscale" .none, .field k!"editWidth" .none, .field k!"filename" .none, .field k!"fit" .none]),
     [(k!"getEditfit", .get k!"editfit") /- 50 -/,
      (k!"setEditfit", .set k!"editfit" true) /- 53 -/,
      (k!"getEditHeight", .get k!"editHeight") /- 58 -/,
      (k!"setEditHeight", .set k!"editHeight" true) /- 61 -/,
      (k!"getEditscale", .get k!"editscale") /- 66 -/,
      (k!"setEditscale", .set k!"editscale" true) /- 69 -/,
      (k!"getEditWidth", .get k!"editWidth") /- 74 -/,
      (k!"setEditWidth", .set k!"editWidth" true) /- 77 -/,
      (k!"getFilename", .get k!"filename") /- 82 -/,
      (k!"setFilename", .set k!"filename" true) /- 85 -/,
      (k!"getFit", .get k!"fit") /- 90 -/,
      (k!"setFit", .set k!"fit" true) /- 93 -/]⟩
   (.node .nil
    -- M2/AUTOSARTemplates/SystemTemplate/Fibex/FibexCore/CoreCommunication.py:1264
    k!"ISignal" ⟨false, some (2, [.sup 2, .field k!"dataTransformationRef" .none, .field k!"dataTypePolicy" .none, .field k!"initValue" .none, .field k!"iSignalProps" .none, .field k!"iSignalType" .none, .field k!"length" .none, .field k!"networkRepresentationProps" .none, .field k!"systemSignalRef" .none, .field k!"timeoutSubstitutionValue" .none, .field k!"transformationISignalProps" .nil]),
     [(k!"getDataTransformationRef", .get k!"dataTransformationRef") /- 1331 -/,
      (k!"setDataTransformationRef", .set k!"dataTransformationRef" true) /- 1337 -/,
      (k!"getDataTypePolicy", .get k!"dataTypePolicy") /- 1346 -/,
      (k!"setDataTypePolicy", .set k!"dataTypePolicy" true) /- 1352 -/,
      (k!"getInitValue", .get k!"initValue") /- 1361 -/,
      (k!"setInitValue", .set k!"initValue" true) /- 1367 -/,
      (k!"getISignalProps", .get k!"iSignalProps") /- 1376 -/,
      (k!"setISignalProps", .set k!"iSignalProps" true) /- 1382 -/,
      (k!"getISignalType", .get k!"iSignalType") /- 1391 -/,
      (k!"setISignalType", .set k!"iSignalType" true) /- 1397 -/,
      (k!"getLength", .get k!"length") /- 1406 -/,
      (k!"setLength", .set k!"length" true) /- 1412 -/,
      (k!"getNetworkRepresentationProps", .get k!"networkRepresentationProps") /- 1421 -/,
      (k!"setNetworkRepresentationProps", .set k!"networkRepresentationProps" true) /- 1427 -/,
      (k!"getSystemSignalRef", .get k!"systemSignalRef") /- 1436 -/,
      (k!"setSystemSignalRef", .set k!"systemSignalRef" true) /- 1442 -/,
      (k!"getTimeoutSubstitutionValue", .get k!"timeoutSubstitutionValue") /- 1451 -/,
      (k!"setTimeoutSubstitutionValue", .set k!"timeoutSubstitutionValue" true) /- 1457 -/,
      (k!"addTransformationISignalProps", .add k!"transformationISignalProps" true false) /- 1466 -/,
      (k!"getTransformationISignalProps", .get k!"transformationISignalProps") /- 1474 -/]⟩
    .nil))
  -- M2/AUTOSARTemplates/GenericStructure/GeneralTemplateClasses/PrimitiveTypes.py:696
  k!"Integer" ⟨false, some (0, [.sup 0]),
     []⟩
  (.node (.node .nil
    -- M2/AUTOSARTemplates/CommonStructure/StandardizationTemplate/Keyword.py:14
    k!"Keyword" ⟨false, some (2, [.sup 2, .field k!"abbrName" .none, .field k!"classifications" .nil]),
     [(k!"getAbbrName", .get k!"abbrName") /- 42 -/,
      (k!"setAbbrName", .set k!"abbrName" true) /- 51 -/,
      (k!"getClassifications", .get k!"classifications") /- 66 -/,
      (k!"addClassification", .add k!"classifications" true false) /- 75 -/]⟩
    .nil)
   -- M2/AUTOSARTemplates/CommonStructure/McGroups.py:14
   k!"McGroup" ⟨false, some (2, [.sup 2, .field k!"mcFunctionRefs" .nil, .field k!"refCalprmSet" .none, .field k!"refMeasurementSet" .none, .field k!"subGroupRefs" .nil]),
     [(k!"addMcFunctionRef", .add k!"mcFunctionRefs" true false) /- 54 -/,
      (k!"getMcFunctionRefs", .get k!"mcFunctionRefs") /- 69 -/,
      (k!"getRefCalprmSet", .get k!"refCalprmSet") /- 78 -/,
      (k!"setRefCalprmSet", .set k!"refCalprmSet" true) /- 87 -/,
      (k!"getRefMeasurementSet", .get k!"refMeasurementSet") /- 102 -/,
      (k!"setRefMeasurementSet", .set k!"refMeasurementSet" true) /- 111 -/,
      (k!"addSubGroupRef", .add k!"subGroupRefs" true false) /- 126 -/,
      (k!"getSubGroupRefs", .get k!"subGroupRefs") /- 141 -/]⟩
   (.node .nil
    -- M2/AUTOSARTemplates/GenericStructure/GeneralTemplateClasses/PrimitiveTypes.py:1009
    k!"RefType" ⟨false, some (0, [.sup 0, .field k!"base" .none, .field k!"dest" .none, .field k!"value" .none]),
     [(k!"getBase", .get k!"base") /- 1032 -/,
      (k!"setBase", .set k!"base" false) /- 1041 -/,
      (k!"getDest", .get k!"dest") /- 1054 -/,
      (k!"setDest", .set k!"dest" false) /- 1063 -/,
      (k!"getValue", .get k!"value") /- 1076 -/,
      (k!"setValue", .set k!"value" false) /- 1085 -/,
      (k!"getShortValue", .other) /- 1098 -/]⟩
    .nil))))

def accTable04 : Bst (ClassAcc) :=
 (.node (.node (.node (.node .nil
    -- utils/uuid_mgr.py:4
    k!"UUIDMgr" ⟨false, some (0, [.field k!"uuid_object_mappings" .other]),
     [(k!"addObject", .other) /- 19 -/,
      (k!"getObjects", .other) /- 28 -/,
      (k!"getDuplicateUUIDs", .other) /- 34 -/]⟩
    .nil)
   -- M2/AUTOSARTemplates/GenericStructure/GeneralTemplateClasses/ArObject.py:10
   k!"ARObject" ⟨true, some (0, [.guard k!"ARObject", .field k!"parent" .none, .field k!"checksum" .none, .field k!"timestamp" .none, .field k!"uuid" .none]),
     [(k!"getTagName", .other) /- 30 -/]⟩
   (.node .nil
    -- M2/MSR/AsamHdo/BaseTypes.py:151
    k!"BaseType" ⟨true, some (2, [.guard k!"BaseType", .sup 2, .field k!"baseTypeDefinition" .other]),
     [(k!"getBaseTypeDefinition", .get k!"baseTypeDefinition") /- 173 -/,
      (k!"setBaseTypeDefinition", .set k!"baseTypeDefinition" true) /- 179 -/]⟩
    .nil))
  -- M2/AUTOSARTemplates/BswModuleTemplate/BswBehavior/__init__.py:853
  k!"BswEvent" ⟨true, some (2, [.guard k!"BswEvent", .sup 2, .field k!"contextLimitationRefs" .nil, .field k!"disabledInModeIRefs" .nil, .field k!"startsOnEventRef" .none]),
     [(k!"getContextLimitationRefs", .get k!"contextLimitationRefs") /- 885 -/,
      (k!"addContextLimitationRef", .add k!"contextLimitationRefs" true false) /- 894 -/,
      (k!"getDisabledInModeIRefs", .get k!"disabledInModeIRefs") /- 909 -/,
      (k!"addDisabledInModeIRef", .add k!"disabledInModeIRefs" true false) /- 918 -/,
      (k!"getStartsOnEventRef", .get k!"startsOnEventRef") /- 933 -/,
      (k!"setStartsOnEventRef", .set k!"startsOnEventRef" true) /- 942 -/]⟩
  (.node (.node .nil
    -- M2/AUTOSARTemplates/SystemTemplate/Fibex/Fibex4Can/CanCommunication.py:44
    k!"CanFrame" ⟨false, some (2, [.sup 2]),
     []⟩
    .nil)
   -- M2/AUTOSARTemplates/SystemTemplate/NetworkManagement.py:737
   k!"CanNmEcu" ⟨false, some (0, [.sup 0]),
     []⟩
   (.node .nil
    -- M2/AUTOSARTemplates/SystemTemplate/TransportProtocols.py:350
    k!"CanTpEcu" ⟨false, some (0, [.sup 0, .field k!"cycleTimeMainFunction" .none, .field k!"ecuInstanceRef" .none]),
     [(k!"getCycleTimeMainFunction", .get k!"cycleTimeMainFunction") /- 370 -/,
      (k!"setCycleTimeMainFunction", .set k!"cycleTimeMainFunction" true) /- 373 -/,
      (k!"getEcuInstanceRef", .get k!"ecuInstanceRef") /- 378 -/,
      (k!"setEcuInstanceRef", .set k!"ecuInstanceRef" true) /- 381 -/]⟩
    .nil)))
 -- M2/AUTOSARTemplates/CommonStructure/Implementation.py:232
 k!"Compiler" ⟨false, some (2, [.sup 2, .field k!"name" .none, .field k!"options" .none, .field k!"vendor" .none, .field k!"version" .none]),
     [(k!"getName", .get k!"name") /- 273 -/,
      (k!"setName", .set k!"name" true) /- 282 -/,
      (k!"getOptions", .get k!"options") /- 297 -/,
      (k!"setOptions", .set k!"options" true) /- 306 -/,
      (k!"getVendor", .get k!"vendor") /- 321 -/,
      (k!"setVendor", .set k!"vendor" true) /- 330 -/,
      (k!"getVersion", .get k!"version") /- 345 -/,
      (k!"setVersion", .set k!"version" true) /- 354 -/]⟩
 (.node (.node (.node .nil
    -- M2/AUTOSARTemplates/GenericStructure/GeneralTemplateClasses/PrimitiveTypes.py:1326
    k!"DateTime" ⟨false, some (0, [.sup 0]),
     []⟩
    .nil)
   -- M2/AUTOSARTemplates/SystemTemplate/Fibex/FibexCore/CoreTopology.py:838
   k!"IPduPort" ⟨false, some (2, [.sup 2, .field k!"iPduSignalProcessing" .none, .field k!"keyId" .none, .field k!"rxSecurityVerification" .none, .field k!"timestampRxAcceptanceWindow" .none, .field k!"useAuthDataFreshness" .none]),
     [(k!"getIPduSignalProcessing", .get k!"iPduSignalProcessing") /- 867 -/,
      (k!"setIPduSignalProcessing", .set k!"iPduSignalProcessing" true) /- 870 -/,
      (k!"getKeyId", .get k!"keyId") /- 875 -/,
      (k!"setKeyId", .set k!"keyId" true) /- 878 -/,
      (k!"getRxSecurityVerification", .get k!"rxSecurityVerification") /- 883 -/,
      (k!"setRxSecurityVerification", .set k!"rxSecurityVerification" true) /- 886 -/,
      (k!"getTimestampRxAcceptanceWindow", .get k!"timestampRxAcceptanceWindow") /- 891 -/,
      (k!"setTimestampRxAcceptanceWindow", .set k!"timestampRxAcceptanceWindow" true) /- 894 -/,
      (k!"getUseAuthDataFreshness", .get k!"useAuthDataFreshness") /- 899 -/,
      (k!"setUseAuthDataFreshness", .set k!"useAuthDataFreshness" true) /- 902 -/]⟩
   (.node .nil
    -- M2/MSR/Documentation/BlockElements/Figure.py:111
    k!"LGraphic" ⟨false, some (0, [.sup 0, .field k!"graphic" .none, .field k!"map" .none]),
     [(k!"getGraphic", .get k!"graphic") /- 134 -/,
      (k!"setGraphic", .set k!"graphic" true) /- 143 -/,
      (k!"getMap", .get k!"map") /- 154 -/,
      (k!"setMap", .set k!"map" true) /- 163 -/]⟩
    .nil))
  -- M2/AUTOSARTemplates/SystemTemplate/Fibex/Fibex4Lin/LinCommunication.py:11
  k!"LinFrame" ⟨true, some (2, [.guard k!"LinFrame", .sup 2]),
     []⟩
  (.node (.node .nil
    -- M2/MSR/Documentation/TextModel/BlockElements/ListElements.py:15
    k!"ListEnum" ⟨false, some (0, [.sup 1]),
     []⟩
    .nil)
   -- M2/MSR/Documentation/BlockElements/Figure.py:175
   k!"MlFigure" ⟨false, some (0, [.sup 0, .field k!"figureCaption" .none, .field k!"helpEntry" .none, .field k!"lGraphics" .nil, .field k!"pgwide" .none, .field k!"verbatim" .none]),
     [(k!"getFigureCaption", .get k!"figureCaption") /- 203 -/,
      (k!"setFigureCaption", .set k!"figureCaption" true) /- 206 -/,
      (k!"getHelpEntry", .get k!"helpEntry") /- 211 -/,
      (k!"setHelpEntry", .set k!"helpEntry" true) /- 214 -/,
      (k!"getLGraphics", .get k!"lGraphics") /- 219 -/,
      (k!"addLGraphics", .add k!"lGraphics" true false) /- 222 -/,
      (k!"getPgwide", .get k!"pgwide") /- 227 -/,
      (k!"setPgwide", .set k!"pgwide" true) /- 230 -/,
      (k!"getVerbatim", .get k!"verbatim") /- 235 -/,
      (k!"setVerbatim", .set k!"verbatim" true) /- 238 -/]⟩
   (.node .nil
    -- M2/AUTOSARTemplates/SystemTemplate/NetworkManagement.py:960
    k!"NmConfig" ⟨false, some (2, [.sup 2, .field k!"nmClusterCouplings" .nil, .field k!"nmIfEcus" .nil]),
     [(k!"createCanNmCluster", .other) /- 985 -/,
      (k!"createUdpNmCluster", .other) /- 991 -/,
      (k!"getCanNmClusters", .other) /- 997 -/,
      (k!"getUdpNmClusters", .other) /- 1000 -/,
      (k!"getNmClusters", .other) /- 1003 -/,
      (k!"getNmClusterCouplings", .get k!"nmClusterCouplings") /- 1006 -/,
      (k!"addNmClusterCouplings", .add k!"nmClusterCouplings" false false) /- 1009 -/,
      (k!"getNmIfEcus", .get k!"nmIfEcus") /- 1013 -/,
      (k!"createNmEcu", .other) /- 1016 -/]⟩
    .nil))))

-- M2/AUTOSARTemplates/CommonStructure/TriggerDeclaration.py:13
def accTable05 : Bst (ClassAcc) :=
 .node accTable03 k!"Trigger" ⟨false, some (2, [.sup 2, .field k!"swImplPolicy" .none, .field k!"triggerPeriod" .none]),
     [(k!"getSwImplPolicy", .get k!"swImplPolicy") /- 41 -/,
      (k!"setSwImplPolicy", .set k!"swImplPolicy" true) /- 50 -/,
      (k!"getTriggerPeriod", .get k!"triggerPeriod") /- 65 -/,
      (k!"setTriggerPeriod", .set k!"triggerPeriod" true) /- 74 -/]⟩ accTable04

-- M2/AUTOSARTemplates/GenericStructure/GeneralTemplateClasses/PrimitiveTypes.py:183
def accTable06 : Bst (ClassAcc) :=
 .node accTable02 k!"ARFloat" ⟨false, some (0, [.sup 0, .field k!"_text" .none]),
     []⟩ accTable05

def accTable07 : Bst (ClassAcc) :=
 (.node (.node (.node (.node (.node .nil
     -- M2/MSR/CalibrationData/CalibrationValue.py:7
     k!"SwValues" ⟨false, some (0, [.sup 0, .field k!"_v" .nil, .field k!"vt" .none]),
     [(k!"addV", .add k!"_v" false false) /- 23 -/,
      (k!"getVs", .get k!"_v") /- 26 -/]⟩
     .nil)
    -- M2/AUTOSARTemplates/GenericStructure/GeneralTemplateClasses/PrimitiveTypes.py:1116
    k!"TRefType" ⟨false, some (0, [.sup 0]),
     []⟩
    .nil)
   -- M2/AUTOSARTemplates/SystemTemplate/TransportProtocols.py:14
   k!"TpConfig" ⟨true, some (2, [.guard k!"TpConfig", .sup 2, .field k!"communicationClusterRef" .none]),
     [(k!"getCommunicationClusterRef", .get k!"communicationClusterRef") /- 34 -/,
      (k!"setCommunicationClusterRef", .set k!"communicationClusterRef" true) /- 37 -/]⟩
   (.node .nil
    -- M2/AUTOSARTemplates/SystemTemplate/NetworkManagement.py:776
    k!"UdpNmEcu" ⟨false, some (0, [.sup 0, .field k!"nmSynchronizationPointEnabled" .none]),
     [(k!"getNmSynchronizationPointEnabled", .get k!"nmSynchronizationPointEnabled") /- 793 -/,
      (k!"setNmSynchronizationPointEnabled", .set k!"nmSynchronizationPointEnabled" true) /- 796 -/]⟩
    .nil))
  -- M2/AUTOSARTemplates/GenericStructure/GeneralTemplateClasses/PrimitiveTypes.py:563
  k!"ARBoolean" ⟨false, some (0, [.sup 0, .field k!"_text" .none]),
     [(k!"_convertNumberToBoolean", .other) /- 582 -/,
      (k!"_convertStringToBoolean", .other) /- 596 -/]⟩
  (.node (.node .nil
    -- M2/AUTOSARTemplates/GenericStructure/GeneralTemplateClasses/Identifiable.py:639
    k!"ARElement" ⟨true, some (2, [.guard k!"ARElement", .sup 2]),
     []⟩
    .nil)
   -- M2/AUTOSARTemplates/GenericStructure/GeneralTemplateClasses/PrimitiveTypes.py:255
   k!"ARLiteral" ⟨false, some (0, [.sup 0]),
     [(k!"upper", .other) /- 288 -/]⟩
   (.node .nil
    -- M2/AUTOSARTemplates/GenericStructure/GeneralTemplateClasses/ARPackage.py:299
    k!"ARPackage" ⟨false, some (2, [.base k!"CollectableElement" 0, .base k!"ARObject" 0, .field k!"parent" .arg, .field k!"short_name" .arg, .field k!"longName" .none, .field k!"annotations" .nil, .field k!"adminData" .none, .field k!"category" .none, .field k!"introduction" .none, .field k!"desc" .none, .field k!"arPackages" .other, .field k!"referenceBases" .nil]),
     [(k!"getShortName", .get k!"short_name") /- 527 -/,
      (k!"getParent", .get k!"parent") /- 536 -/,
      (k!"getFullName", .other) /- 552 -/,
      (k!"getLongName", .get k!"longName") /- 561 -/,
      (k!"setLongName", .set k!"longName" false) /- 570 -/,
      (k!"getAdminData", .get k!"adminData") /- 583 -/,
      (k!"setAdminData", .set k!"adminData" true) /- 592 -/,
      (k!"removeAdminData", .other) /- 607 -/,
      (k!"getDesc", .get k!"desc") /- 613 -/,
      (k!"setDesc", .set k!"desc" false) /- 622 -/,
      (k!"getCategory", .get k!"category") /- 635 -/,
      (k!"setCategory", .other) /- 644 -/,
      (k!"getIntroduction", .get k!"introduction") /- 661 -/,
      (k!"setIntroduction", .set k!"introduction" false) /- 670 -/,
      (k!"addAnnotation", .add k!"annotations" false false) /- 683 -/,
      (k!"getAnnotations", .get k!"annotations") /- 696 -/,
      (k!"getARPackages", .other) /- 705 -/,
      (k!"createARPackage", .other) /- 716 -/,
      (k!"getElement", .other) /- 732 -/,
      (k!"createEcuAbstractionSwComponentType", .other) /- 749 -/,
      (k!"createApplicationSwComponentType", .other) /- 755 -/,
      (k!"createComplexDeviceDriverSwComponentType", .other) /- 775 -/,
      (k!"createServiceSwComponentType", .other) /- 781 -/,
      (k!"createSensorActuatorSwComponentType", .other) /- 787 -/,
      (k!"createNvBlockSwComponentType", .other) /- 793 -/,
      (k!"createServiceProxySwComponentType", .other) /- 799 -/,
      (k!"createCompositionSwComponentType", .other) /- 805 -/,
      (k!"createSenderReceiverInterface", .other) /- 811 -/,
      (k!"createParameterInterface", .other) /- 831 -/,
      (k!"createNvDataInterface", .other) /- 837 -/,
      (k!"createGenericEthernetFrame", .other) /- 843 -/,
      (k!"createLifeCycleInfoSet", .other) /- 849 -/,
      (k!"createDocumentation", .other) /- 855 -/,
      (k!"createClientServerInterface", .other) /- 861 -/,
      (k!"createApplicationPrimitiveDataType", .other) /- 867 -/,
      (k!"createApplicationRecordDataType", .other) /- 873 -/,
      (k!"createImplementationDataType", .other) /- 879 -/,
      (k!"createSwBaseType", .other) /- 899 -/,
      (k!"createDataTypeMappingSet", .other) /- 905 -/,
      (k!"createCompuMethod", .other) /- 911 -/,
      (k!"createBswModuleDescription", .other) /- 917 -/,
      (k!"createBswModuleEntry", .other) /- 937 -/,
      (k!"createBswImplementation", .other) /- 943 -/,
      (k!"createSwcImplementation", .other) /- 949 -/,
      (k!"createSwcBswMapping", .other) /- 955 -/,
      (k!"createMcFunction", .other) /- 961 -/,
      (k!"createMcGroup", .other) /- 977 -/,
      (k!"createConstantSpecification", .other) /- 993 -/,
      (k!"createDataConstr", .other) /- 999 -/,
      (k!"createUnit", .other) /- 1005 -/,
      (k!"createEndToEndProtectionSet", .other) /- 1011 -/,
      (k!"createApplicationArrayDataType", .other) /- 1017 -/,
      (k!"createSwRecordLayout", .other) /- 1023 -/,
      (k!"createSwAddrMethod", .other) /- 1029 -/,
      (k!"createTriggerInterface", .other) /- 1035 -/,
      (k!"createDataPrototypeGroup", .other) /- 1041 -/,
      (k!"createRunnableEntityGroup", .other) /- 1047 -/,
      (k!"createConsistencyNeeds", .other) /- 1053 -/,
      (k!"createModeDeclarationGroup", .other) /- 1059 -/,
      (k!"createModeSwitchInterface", .other) /- 1065 -/,
      (k!"createSwcTiming", .other) /- 1071 -/,
      (k!"createLinCluster", .other) /- 1077 -/,
      (k!"createCanCluster", .other) /- 1083 -/,
      (k!"createLinUnconditionalFrame", .other) /- 1089 -/,
      (k!"createNmPdu", .other) /- 1095 -/,
      (k!"createNPdu", .other) /- 1101 -/,
      (k!"createDcmIPdu", .other) /- 1107 -/,
      (k!"createSecuredIPdu", .other) /- 1113 -/,
      (k!"createNmConfig", .other) /- 1119 -/,
      (k!"createCanTpConfig", .other) /- 1125 -/,
      (k!"createLinTpConfig", .other) /- 1131 -/,
      (k!"createCanFrame", .other) /- 1137 -/,
      (k!"createEcuInstance", .other) /- 1156 -/,
      (k!"createGateway", .other) /- 1176 -/,
      (k!"createISignal", .other) /- 1182 -/,
      (k!"createSystemSignal", .other) /- 1188 -/,
      (k!"createSystemSignalGroup", .other) /- 1208 -/,
      (k!"createSignalServiceTranslationPropsSet", .other) /- 1214 -/,
      (k!"createISignalIPdu", .other) /- 1220 -/,
      (k!"createEcucValueCollection", .other) /- 1226 -/,
      (k!"createEcucModuleConfigurationValues", .other) /- 1232 -/,
      (k!"createEcucModuleDef", .other) /- 1238 -/,
      (k!"createEcucDefinitionCollection", .other) /- 1244 -/,
      (k!"createEcucDestinationUriDefSet", .other) /- 1250 -/,
      (k!"createSwSystemConst", .other) /- 1256 -/,
      (k!"createSwSystemconstantValueSet", .other) /- 1262 -/,
      (k!"createPredefinedVariant", .other) /- 1268 -/,
      (k!"createPostBuildVariantCriterion", .other) /- 1274 -/,
      (k!"createPhysicalDimension", .other) /- 1280 -/,
      (k!"createISignalGroup", .other) /- 1286 -/,
      (k!"createISignalIPduGroup", .other) /- 1292 -/,
      (k!"createSystem", .other) /- 1298 -/,
      (k!"createFlatMap", .other) /- 1304 -/,
      (k!"createPortInterfaceMappingSet", .other) /- 1310 -/,
      (k!"createEthernetCluster", .other) /- 1316 -/,
      (k!"createDiagnosticConnection", .other) /- 1322 -/,
      (k!"createDiagnosticServiceTable", .other) /- 1328 -/,
      (k!"createMultiplexedIPdu", .other) /- 1348 -/,
      (k!"createUserDefinedIPdu", .other) /- 1354 -/,
      (k!"createUserDefinedPdu", .other) /- 1360 -/,
      (k!"createGeneralPurposeIPdu", .other) /- 1366 -/,
      (k!"createGeneralPurposePdu", .other) /- 1372 -/,
      (k!"createSecureCommunicationPropsSet", .other) /- 1378 -/,
      (k!"createSoAdRoutingGroup", .other) /- 1384 -/,
      (k!"createDoIpTpConfig", .other) /- 1390 -/,
      (k!"createHwElement", .other) /- 1396 -/,
      (k!"createHwCategory", .other) /- 1402 -/,
      (k!"createHwType", .other) /- 1408 -/,
      (k!"createFlexrayFrame", .other) /- 1414 -/,
      (k!"createFlexrayCluster", .other) /- 1420 -/,
      (k!"createDataTransformationSet", .other) /- 1426 -/,
      (k!"createE2EProfileCompatibilityProps", .other) /- 1432 -/,
      (k!"createCollection", .other) /- 1438 -/,
      (k!"createKeywordSet", .other) /- 1444 -/,
      (k!"createPortPrototypeBlueprint", .other) /- 1450 -/,
      (k!"createModeDeclarationMappingSet", .other) /- 1456 -/,
      (k!"getApplicationPrimitiveDataTypes", .other) /- 1462 -/,
      (k!"getApplicationDataType", .other) /- 1465 -/,
      (k!"getImplementationDataTypes", .other) /- 1468 -/,
      (k!"getSwBaseTypes", .other) /- 1471 -/,
      (k!"getSwComponentTypes", .other) /- 1474 -/,
      (k!"getSensorActuatorSwComponentType", .other) /- 1477 -/,
      (k!"getAtomicSwComponentTypes", .other) /- 1480 -/,
      (k!"getCompositionSwComponentTypes", .other) /- 1483 -/,
      (k!"getComplexDeviceDriverSwComponentTypes", .other) /- 1486 -/,
      (k!"getSenderReceiverInterfaces", .other) /- 1489 -/,
      (k!"getParameterInterfaces", .other) /- 1492 -/,
      (k!"getClientServerInterfaces", .other) /- 1495 -/,
      (k!"getDataTypeMappingSets", .other) /- 1498 -/,
      (k!"getCompuMethods", .other) /- 1501 -/,
      (k!"getBswModuleDescriptions", .other) /- 1504 -/,
      (k!"getBswModuleEntries", .other) /- 1507 -/,
      (k!"getBswImplementations", .other) /- 1510 -/,
      (k!"getSwcImplementations", .other) /- 1513 -/,
      (k!"getImplementations", .other) /- 1516 -/,
      (k!"getSwcBswMappings", .other) /- 1519 -/,
      (k!"getMcFunctions", .other) /- 1522 -/,
      (k!"getMcGroups", .other) /- 1531 -/,
      (k!"getConstantSpecifications", .other) /- 1540 -/,
      (k!"getDataConstrs", .other) /- 1543 -/,
      (k!"getUnits", .other) /- 1546 -/,
      (k!"getApplicationArrayDataTypes", .other) /- 1549 -/,
      (k!"getSwRecordLayouts", .other) /- 1552 -/,
      (k!"getSwAddrMethods", .other) /- 1555 -/,
      (k!"getTriggerInterfaces", .other) /- 1558 -/,
      (k!"getModeDeclarationGroups", .other) /- 1561 -/,
      (k!"getModeSwitchInterfaces", .other) /- 1564 -/,
      (k!"getSwcTimings", .other) /- 1567 -/,
      (k!"getLinClusters", .other) /- 1570 -/,
      (k!"getCanClusters", .other) /- 1573 -/,
      (k!"getLinUnconditionalFrames", .other) /- 1576 -/,
      (k!"getNmPdus", .other) /- 1579 -/,
      (k!"getNPdus", .other) /- 1582 -/,
      (k!"getDcmIPdus", .other) /- 1585 -/,
      (k!"getSecuredIPdus", .other) /- 1588 -/,
      (k!"getNmConfigs", .other) /- 1591 -/,
      (k!"getCanTpConfigs", .other) /- 1594 -/,
      (k!"getCanFrames", .other) /- 1597 -/,
      (k!"getEcuInstances", .other) /- 1600 -/,
      (k!"getGateways", .other) /- 1603 -/,
      (k!"getISignals", .other) /- 1606 -/,
      (k!"getEcucValueCollections", .other) /- 1609 -/,
      (k!"getEcucModuleConfigurationValues", .other) /- 1612 -/,
      (k!"getEcucModuleDefs", .other) /- 1615 -/,
      (k!"getEcucDefinitionCollections", .other) /- 1618 -/,
      (k!"getSwSystemConsts", .other) /- 1621 -/,
      (k!"getSwSystemconstantValueSets", .other) /- 1624 -/,
      (k!"getPredefinedVariants", .other) /- 1627 -/,
      (k!"getPostBuildVariantCriterions", .other) /- 1635 -/,
      (k!"getEcucPhysicalDimensions", .other) /- 1643 -/,
      (k!"getISignalGroups", .other) /- 1646 -/,
      (k!"getSystemSignals", .other) /- 1649 -/,
      (k!"getSystemSignalGroups", .other) /- 1652 -/,
      (k!"getISignalIPdus", .other) /- 1655 -/,
      (k!"getSystems", .other) /- 1658 -/,
      (k!"getHwElements", .other) /- 1661 -/,
      (k!"getHwCategories", .other) /- 1664 -/,
      (k!"getFlexrayFrames", .other) /- 1667 -/,
      (k!"getDataTransformationSets", .other) /- 1670 -/,
      (k!"getCollections", .other) /- 1673 -/,
      (k!"getKeywordSets", .other) /- 1676 -/,
      (k!"getPortPrototypeBlueprints", .other) /- 1679 -/,
      (k!"getModeDeclarationMappingSets", .other) /- 1682 -/,
      (k!"getReferenceBases", .get k!"referenceBases") /- 1685 -/,
      (k!"addReferenceBase", .add k!"referenceBases" false false) /- 1688 -/]⟩
    .nil)))
 -- M2/MSR/AsamHdo/AdminData.py:137
 k!"AdminData" ⟨false, some (0, [.sup 0, .field k!"DocRevisions" .nil, .field k!"language" .none, .field k!"sdgs" .nil, .field k!"usedLanguages" .none]),
     [(k!"getDocRevisions", .get k!"DocRevisions") /- 162 -/,
      (k!"addDocRevision", .add k!"DocRevisions" false false) /- 165 -/,
      (k!"getLanguage", .get k!"language") /- 169 -/,
      (k!"setLanguage", .set k!"language" false) /- 172 -/,
      (k!"getSdgs", .get k!"sdgs") /- 176 -/,
      (k!"addSdg", .add k!"sdgs" false false) /- 179 -/,
      (k!"getUsedLanguages", .get k!"usedLanguages") /- 183 -/,
      (k!"setUsedLanguages", .set k!"usedLanguages" false) /- 186 -/]⟩
 (.node (.node (.node .nil
    -- M2/AUTOSARTemplates/SystemTemplate/NetworkManagement.py:309
    k!"CanNmNode" ⟨false, some (2, [.sup 2, .field k!"allNmMessagesKeepAwake" .none, .field k!"nmCarWakeUpFilterEnabled" .none, .field k!"nmCarWakeUpRxEnabled" .none, .field k!"nmMsgCycleOffset" .none, .field k!"nmMsgReducedTime" .none, .field k!"nmRangeConfig" .none]),
     [(k!"getAllNmMessagesKeepAwake", .get k!"allNmMessagesKeepAwake") /- 341 -/,
      (k!"setAllNmMessagesKeepAwake", .set k!"allNmMessagesKeepAwake" false) /- 344 -/,
      (k!"getNmCarWakeUpFilterEnabled", .get k!"nmCarWakeUpFilterEnabled") /- 348 -/,
      (k!"setNmCarWakeUpFilterEnabled", .set k!"nmCarWakeUpFilterEnabled" false) /- 351 -/,
      (k!"getNmCarWakeUpRxEnabled", .get k!"nmCarWakeUpRxEnabled") /- 355 -/,
      (k!"setNmCarWakeUpRxEnabled", .set k!"nmCarWakeUpRxEnabled" false) /- 358 -/,
      (k!"getNmMsgCycleOffset", .get k!"nmMsgCycleOffset") /- 362 -/,
      (k!"setNmMsgCycleOffset", .set k!"nmMsgCycleOffset" false) /- 365 -/,
      (k!"getNmMsgReducedTime", .get k!"nmMsgReducedTime") /- 369 -/,
      (k!"setNmMsgReducedTime", .set k!"nmMsgReducedTime" false) /- 372 -/,
      (k!"getNmRangeConfig", .get k!"nmRangeConfig") /- 376 -/,
      (k!"setNmRangeConfig", .set k!"nmRangeConfig" false) /- 379 -/]⟩
    .nil)
   -- M2/AUTOSARTemplates/SystemTemplate/TransportProtocols.py:387
   k!"CanTpNode" ⟨false, some (2, [.sup 2, .field k!"connectorRef" .none, .field k!"maxFcWait" .none, .field k!"stMin" .none, .field k!"timeoutAr" .none, .field k!"timeoutAs" .none, .field k!"tpAddressRef" .none]),
     [(k!"getConnectorRef", .get k!"connectorRef") /- 419 -/,
      (k!"setConnectorRef", .set k!"connectorRef" true) /- 422 -/,
      (k!"getMaxFcWait", .get k!"maxFcWait") /- 427 -/,
      (k!"setMaxFcWait", .set k!"maxFcWait" true) /- 430 -/,
      (k!"getStMin", .get k!"stMin") /- 435 -/,
      (k!"setStMin", .set k!"stMin" true) /- 438 -/,
      (k!"getTimeoutAr", .get k!"timeoutAr") /- 443 -/,
      (k!"setTimeoutAr", .set k!"timeoutAr" true) /- 446 -/,
      (k!"getTimeoutAs", .get k!"timeoutAs") /- 451 -/,
      (k!"setTimeoutAs", .set k!"timeoutAs" true) /- 454 -/,
      (k!"getTpAddressRef", .get k!"tpAddressRef") /- 459 -/,
      (k!"setTpAddressRef", .set k!"tpAddressRef" true) /- 462 -/]⟩
   (.node .nil
    -- M2/AUTOSARTemplates/ECUCParameterDefTemplate.py:2261
    k!"EcucQuery" ⟨false, some (2, [.sup 2, .field k!"ecucQueryExpression" .none]),
     [(k!"getEcucQueryExpression", .get k!"ecucQueryExpression") /- 2279 -/,
      (k!"setEcucQueryExpression", .set k!"ecucQueryExpression" true) /- 2285 -/]⟩
    .nil))
  -- M2/MSR/Documentation/BlockElements/OasisExchangeTable.py:6
  k!"FloatEnum" ⟨false, some (0, [.sup 1]),
     []⟩
  (.node (.node .nil
    -- M2/AUTOSARTemplates/SystemTemplate/Fibex/FibexCore/CoreTopology.py:812
    k!"FramePort" ⟨false, some (2, [.sup 2]),
     []⟩
    .nil)
   -- M2/AUTOSARTemplates/SystemTemplate/Fibex/Fibex4Ethernet/ServiceInstances.py:31
   k!"GenericTp" ⟨false, some (0, [.sup 0, .field k!"tpAddress" .none, .field k!"tpTechnology" .none]),
     [(k!"getTpAddress", .get k!"tpAddress") /- 51 -/,
      (k!"setTpAddress", .set k!"tpAddress" false) /- 54 -/,
      (k!"getTpTechnology", .get k!"tpTechnology") /- 58 -/,
      (k!"setTpTechnology", .set k!"tpTechnology" false) /- 61 -/]⟩
   (.node .nil
    -- M2/AUTOSARTemplates/CommonStructure/ResourceConsumption/HeapUsage.py:19
    k!"HeapUsage" ⟨true, some (2, [.guard k!"HeapUsage", .sup 2, .field k!"hardwareConfiguration" .none, .field k!"hwElementRef" .none, .field k!"softwareContext" .none]),
     [(k!"getHardwareConfiguration", .get k!"hardwareConfiguration") /- 58 -/,
      (k!"setHardwareConfiguration", .set k!"hardwareConfiguration" true) /- 67 -/,
      (k!"getHwElementRef", .get k!"hwElementRef") /- 82 -/,
      (k!"setHwElementRef", .set k!"hwElementRef" true) /- 91 -/,
      (k!"getSoftwareContext", .get k!"softwareContext") /- 106 -/,
      (k!"setSoftwareContext", .set k!"softwareContext" true) /- 115 -/]⟩
    .nil))))

def accTable08 : Bst (ClassAcc) :=
 (.node (.node (.node (.node (.node .nil
     -- M2/AUTOSARTemplates/SWComponentTemplate/SwcInternalBehavior/RTEEvents.py:371
     k!"InitEvent" ⟨false, some (2, [.sup 2]),
     []⟩
     .nil)
    -- M2/MSR/Documentation/TextModel/LanguageDataModel.py:332
    k!"LLongName" ⟨false, some (0, [.sup 0, .field k!"blueprintValue" .none]),
     [(k!"getBlueprintValue", .get k!"blueprintValue") /- 351 -/,
      (k!"setBlueprintValue", .set k!"blueprintValue" true) /- 357 -/]⟩
    .nil)
   -- M2/MSR/Documentation/TextModel/LanguageDataModel.py:378
   k!"LVerbatim" ⟨false, some (0, [.sup 0]),
     []⟩
   (.node .nil
    -- M2/AUTOSARTemplates/SystemTemplate/Fibex/Fibex4Lin/LinTopology.py:35
    k!"LinMaster" ⟨false, some (2, [.sup 2, .field k!"linSlaves" .nil, .field k!"timeBase" .none, .field k!"timeBaseJitter" .none]),
     [(k!"getLinSlaves", .get k!"linSlaves") /- 58 -/,
      (k!"addLinSlaves", .add k!"linSlaves" true false) /- 61 -/,
      (k!"getTimeBase", .get k!"timeBase") /- 66 -/,
      (k!"setTimeBase", .set k!"timeBase" true) /- 69 -/,
      (k!"getTimeBaseJitter", .get k!"timeBaseJitter") /- 74 -/,
      (k!"setTimeBaseJitter", .set k!"timeBaseJitter" true) /- 77 -/]⟩
    .nil))
  -- M2/AUTOSARTemplates/SystemTemplate/TransportProtocols.py:807
  k!"LinTpNode" ⟨false, some (2, [.sup 2, .field k!"connectorRef" .none, .field k!"dropNotRequestedNad" .none, .field k!"maxNumberOfRespPendingFrames" .none, .field k!"p2Max" .none, .field k!"p2Timing" .none, .field k!"tpAddressRef" .none]),
     [(k!"getConnectorRef", .get k!"connectorRef") /- 839 -/,
      (k!"setConnectorRef", .set k!"connectorRef" true) /- 842 -/,
      (k!"getDropNotRequestedNad", .get k!"dropNotRequestedNad") /- 847 -/,
      (k!"setDropNotRequestedNad", .set k!"dropNotRequestedNad" true) /- 850 -/,
      (k!"getMaxNumberOfRespPendingFrames", .get k!"maxNumberOfRespPendingFrames") /- 855 -/,
      (k!"setMaxNumberOfRespPendingFrames", .set k!"maxNumberOfRespPendingFrames" true) /- 858 -/,
      (k!"getP2Max", .get k!"p2Max") /- 863 -/,
      (k!"setP2Max", .set k!"p2Max" true) /- 866 -/,
      (k!"getP2Timing", .get k!"p2Timing") /- 871 -/,
      (k!"setP2Timing", .set k!"p2Timing" true) /- 874 -/,
      (k!"getTpAddressRef", .get k!"tpAddressRef") /- 879 -/,
      (k!"setTpAddressRef", .set k!"tpAddressRef" true) /- 882 -/]⟩
  (.node (.node .nil
    -- M2/MSR/Documentation/BlockElements/Formula.py:9
    k!"MlFormula" ⟨false, some (0, [.sup 0, .field k!"formulaCaption" .none, .field k!"genericMath" .none, .field k!"lGraphics" .nil, .field k!"texMath" .none, .field k!"verbatim" .none]),
     [(k!"getFormulaCaption", .get k!"formulaCaption") /- 49 -/,
      (k!"setFormulaCaption", .set k!"formulaCaption" true) /- 58 -/,
      (k!"getGenericMath", .get k!"genericMath") /- 69 -/,
      (k!"setGenericMath", .set k!"genericMath" true) /- 78 -/,
      (k!"addLGraphic", .add k!"lGraphics" true false) /- 89 -/,
      (k!"getLGraphics", .get k!"lGraphics") /- 100 -/,
      (k!"getTexMath", .get k!"texMath") /- 109 -/,
      (k!"setTexMath", .set k!"texMath" true) /- 118 -/,
      (k!"getVerbatim", .get k!"verbatim") /- 129 -/,
      (k!"setVerbatim", .set k!"verbatim" true) /- 138 -/]⟩
    .nil)
   -- M2/AUTOSARTemplates/GenericStructure/GeneralTemplateClasses/PrimitiveTypes.py:642
   k!"NameToken" ⟨false, some (0, [.sup 0]),
     []⟩
   (.node .nil
    -- M2/AUTOSARTemplates/SystemTemplate/NetworkManagement.py:1024
    k!"NmCluster" ⟨true, some (2, [.guard k!"NmCluster", .sup 2, .field k!"communicationClusterRef" .none, .field k!"nmChannelId" .none, .field k!"nmChannelSleepMaster" .none, .field k!"nmNodes" .nil, .field k!"nmNodeDetectionEnabled" .none, .field k!"nmNodeIdEnabled" .none, .field k!"nmPncParticipation" .none, .field k!"nmRepeatMsgIndEnabled" .none, .field k!"_nmSynchronizingNetwork" .none]),
     [(k!"getCommunicationClusterRef", .get k!"communicationClusterRef") /- 1073 -/,
      (k!"setCommunicationClusterRef", .set k!"communicationClusterRef" false) /- 1076 -/,
      (k!"getNmChannelId", .get k!"nmChannelId") /- 1080 -/,
      (k!"setNmChannelId", .set k!"nmChannelId" false) /- 1083 -/,
      (k!"getNmChannelSleepMaster", .get k!"nmChannelSleepMaster") /- 1087 -/,
      (k!"setNmChannelSleepMaster", .set k!"nmChannelSleepMaster" false) /- 1090 -/,
      (k!"createCanNmNode", .other) /- 1094 -/,
      (k!"readUdpNmNode", .other) /- 1101 -/,
      (k!"createJ1939NmNode", .other) /- 1108 -/,
      (k!"getCanNmNodes", .other) /- 1115 -/,
      (k!"getUdpNmNodes", .other) /- 1118 -/,
      (k!"getJ1939NmNodes", .other) /- 1121 -/,
      (k!"getNmNodes", .other) /- 1124 -/,
      (k!"getNmNodeDetectionEnabled", .get k!"nmNodeDetectionEnabled") /- 1127 -/,
      (k!"setNmNodeDetectionEnabled", .set k!"nmNodeDetectionEnabled" false) /- 1130 -/,
      (k!"getNmNodeIdEnabled", .get k!"nmNodeIdEnabled") /- 1134 -/,
      (k!"setNmNodeIdEnabled", .set k!"nmNodeIdEnabled" false) /- 1137 -/,
      (k!"getNmPncParticipation", .get k!"nmPncParticipation") /- 1141 -/,
      (k!"setNmPncParticipation", .set k!"nmPncParticipation" false) /- 1144 -/,
      (k!"getNmRepeatMsgIndEnabled", .get k!"nmRepeatMsgIndEnabled") /- 1148 -/,
      (k!"setNmRepeatMsgIndEnabled", .set k!"nmRepeatMsgIndEnabled" false) /- 1151 -/,
      (k!"getNmSynchronizingNetwork", .get k!"_nmSynchronizingNetwork") /- 1155 -/,
      (k!"setNmSynchronizingNetwork", .set k!"_nmSynchronizingNetwork" false) /- 1158 -/]⟩
    .nil)))
 -- M2/AUTOSARTemplates/GenericStructure/GeneralTemplateClasses/PrimitiveTypes.py:1439
 k!"Numerical" ⟨false, some (0, [.sup 0]),
     []⟩
 (.node (.node (.node .nil
    -- M2/AUTOSARTemplates/SWComponentTemplate/Components/__init__.py:479
    k!"PortGroup" ⟨false, some (2, [.sup 2, .field k!"_inner_group_iref" .nil, .field k!"_outer_port_ref" .nil]),
     [(k!"addInnerGroupIRef", .add k!"_inner_group_iref" false false) /- 493 -/,
      (k!"getInnerGroupIRefs", .get k!"_inner_group_iref") /- 496 -/,
      (k!"addOuterPortRef", .add k!"_outer_port_ref" false false) /- 499 -/,
      (k!"getOuterPortRefs", .get k!"_outer_port_ref") /- 502 -/]⟩
    .nil)
   -- M2/AUTOSARTemplates/CommonStructure/Timing/TimingConstraint/TimingExtensions.py:69
   k!"SwcTiming" ⟨false, some (2, [.sup 2]),
     []⟩
   (.node .nil
    -- M2/AUTOSARTemplates/GenericStructure/GeneralTemplateClasses/PrimitiveTypes.py:239
    k!"TimeValue" ⟨false, some (0, [.sup 0]),
     []⟩
    .nil))
  -- M2/AUTOSARTemplates/SystemTemplate/TransportProtocols.py:668
  k!"TpAddress" ⟨false, some (2, [.sup 2, .field k!"tpAddress" .none]),
     [(k!"getTpAddress", .get k!"tpAddress") /- 684 -/,
      (k!"setTpAddress", .set k!"tpAddress" true) /- 687 -/]⟩
  (.node (.node .nil
    -- M2/AUTOSARTemplates/CommonStructure/Timing/Traceable.py:7
    k!"Traceable" ⟨true, some (2, [.guard k!"Traceable", .sup 2]),
     []⟩
    .nil)
   -- M2/AUTOSARTemplates/SystemTemplate/NetworkManagement.py:684
   k!"UdpNmNode" ⟨false, some (2, [.sup 2, .field k!"allNmMessagesKeepAwake" .none, .field k!"nmMsgCycleOffset" .none]),
     [(k!"getAllNmMessagesKeepAwake", .get k!"allNmMessagesKeepAwake") /- 704 -/,
      (k!"setAllNmMessagesKeepAwake", .set k!"allNmMessagesKeepAwake" true) /- 707 -/,
      (k!"getNmMsgCycleOffset", .get k!"nmMsgCycleOffset") /- 712 -/,
      (k!"setNmMsgCycleOffset", .set k!"nmMsgCycleOffset" true) /- 715 -/]⟩
   (.node .nil
    -- M2/MSR/AsamHdo/Units.py:270
    k!"UnitGroup" ⟨false, some (2, [.sup 2, .field k!"units" .nil]),
     [(k!"getUnits", .get k!"units") /- 292 -/,
      (k!"addUnit", .add k!"units" true false) /- 295 -/]⟩
    .nil))))

-- M2/AUTOSARTemplates/EcuResourceTemplate/__init__.py:531
def accTable09 : Bst (ClassAcc) :=
 .node accTable07 k!"HwElement" ⟨false, some (2, [.sup 2, .field k!"hwElementConnections" .nil, .field k!"hwPinGroups" .nil, .field k!"nestedElementRefs" .nil]),
     [(k!"getHwElementConnections", .get k!"hwElementConnections") /- 561 -/,
      (k!"addHwElementConnection", .add k!"hwElementConnections" true false) /- 570 -/,
      (k!"getHwPinGroups", .get k!"hwPinGroups") /- 583 -/,
      (k!"createHwPinGroup", .other) /- 592 -/,
      (k!"getNestedElementRefs", .get k!"nestedElementRefs") /- 607 -/,
      (k!"addNestedElementRef", .add k!"nestedElementRefs" true false) /- 616 -/]⟩ accTable08

def accTable10 : Bst (ClassAcc) :=
 (.node (.node (.node (.node (.node .nil
     -- M2/AUTOSARTemplates/SWComponentTemplate/SwcInternalBehavior/RTEEvents.py:557
     k!"WaitPoint" ⟨false, some (2, [.sup 2, .field k!"timeout" .none, .field k!"triggerRef" .none]),
     [(k!"getTimeout", .get k!"timeout") /- 581 -/,
      (k!"setTimeout", .set k!"timeout" true) /- 590 -/,
      (k!"getTriggerRef", .get k!"triggerRef") /- 605 -/,
      (k!"setTriggerRef", .set k!"triggerRef" true) /- 614 -/]⟩
     .nil)
    -- M2/AUTOSARTemplates/AutosarTopLevelStructure/__init__.py:386
    k!"AUTOSARDoc" ⟨false, some (0, [.sup 0]),
     []⟩
    .nil)
   -- M2/MSR/Documentation/Annotation.py:53
   k!"Annotation" ⟨false, some (0, [.sup 0]),
     []⟩
   (.node .nil
    -- M2/AUTOSARTemplates/GenericStructure/AbstractStructure.py:157
    k!"AtpFeature" ⟨true, some (2, [.guard k!"AtpFeature", .sup 2]),
     []⟩
    .nil))
  -- M2/AUTOSARTemplates/SystemTemplate/Fibex/FibexCore/CoreTopology.py:686
  k!"CanCluster" ⟨false, some (2, [.sup 2]),
     []⟩
  (.node (.node .nil
    -- M2/AUTOSARTemplates/GenericStructure/GeneralTemplateClasses/ElementCollection.py:14
    k!"Collection" ⟨false, some (2, [.sup 2, .field k!"autoCollect" .none, .field k!"collectedInstances" .nil, .field k!"collectionSemantics" .none, .field k!"elementRefs" .nil, .field k!"elementRole" .none, .field k!"sourceElementRefs" .nil, .field k!"sourceInstances" .nil]),
     [(k!"getAutoCollect", .get k!"autoCollect") /- 48 -/,
      (k!"setAutoCollect", .set k!"autoCollect" true) /- 57 -/,
      (k!"getCollectedInstances", .get k!"collectedInstances") /- 72 -/,
      (k!"setCollectedInstances", .set k!"collectedInstances" true) /- 81 -/,
      (k!"getCollectionSemantics", .get k!"collectionSemantics") /- 96 -/,
      (k!"setCollectionSemantics", .set k!"collectionSemantics" true) /- 105 -/,
      (k!"getElementRefs", .get k!"elementRefs") /- 120 -/,
      (k!"addElementRef", .add k!"elementRefs" true false) /- 129 -/,
      (k!"getElementRole", .get k!"elementRole") /- 144 -/,
      (k!"setElementRole", .set k!"elementRole" true) /- 153 -/,
      (k!"getSourceElementRefs", .get k!"sourceElementRefs") /- 168 -/,
      (k!"addSourceElementRef", .add k!"sourceElementRefs" true false) /- 177 -/,
      (k!"getSourceInstances", .get k!"sourceInstances") /- 192 -/,
      (k!"setSourceInstances", .set k!"sourceInstances" true) /- 201 -/]⟩
    .nil)
   -- M2/MSR/AsamHdo/ComputationMethod.py:28
   k!"CompuConst" ⟨false, some (0, [.sup 0, .field k!"compuConstContentType" .none]),
     [(k!"getCompuConstContentType", .get k!"compuConstContentType") /- 45 -/,
      (k!"setCompuConstContentType", .set k!"compuConstContentType" false) /- 48 -/]⟩
   (.node .nil
    -- M2/MSR/AsamHdo/ComputationMethod.py:301
    k!"CompuScale" ⟨false, some (0, [.sup 0, .field k!"a2lDisplayText" .none, .field k!"compuInverseValue" .none, .field k!"compuScaleContents" .none, .field k!"desc" .none, .field k!"lowerLimit" .none, .field k!"mask" .none, .field k!"shortLabel" .none, .field k!"symbol" .none, .field k!"upperLimit" .none]),
     [(k!"getA2lDisplayText", .get k!"a2lDisplayText") /- 341 -/,
      (k!"setA2lDisplayText", .set k!"a2lDisplayText" false) /- 344 -/,
      (k!"getCompuInverseValue", .get k!"compuInverseValue") /- 348 -/,
      (k!"setCompuInverseValue", .set k!"compuInverseValue" false) /- 351 -/,
      (k!"getCompuScaleContents", .get k!"compuScaleContents") /- 355 -/,
      (k!"setCompuScaleContents", .set k!"compuScaleContents" false) /- 358 -/,
      (k!"getDesc", .get k!"desc") /- 362 -/,
      (k!"setDesc", .set k!"desc" false) /- 365 -/,
      (k!"getLowerLimit", .get k!"lowerLimit") /- 369 -/,
      (k!"setLowerLimit", .set k!"lowerLimit" false) /- 372 -/,
      (k!"getMask", .get k!"mask") /- 376 -/,
      (k!"setMask", .set k!"mask" true) /- 379 -/,
      (k!"getShortLabel", .get k!"shortLabel") /- 384 -/,
      (k!"setShortLabel", .set k!"shortLabel" false) /- 387 -/,
      (k!"getSymbol", .get k!"symbol") /- 391 -/,
      (k!"setSymbol", .set k!"symbol" false) /- 394 -/,
      (k!"getUpperLimit", .get k!"upperLimit") /- 398 -/,
      (k!"setUpperLimit", .set k!"upperLimit" false) /- 401 -/]⟩
    .nil)))
 -- M2/MSR/AsamHdo/Constraints/GlobalConstraints.py:459
 k!"DataConstr" ⟨false, some (2, [.sup 2, .field k!"data_constr_rule" .nil]),
     [(k!"addDataConstrRule", .add k!"data_constr_rule" false false) /- 475 -/,
      (k!"getDataConstrRules", .get k!"data_constr_rule") /- 478 -/]⟩
 (.node (.node (.node .nil
    -- M2/AUTOSARTemplates/CommonStructure/Filter.py:52
    k!"DataFilter" ⟨false, some (0, [.sup 0, .field k!"dataFilterType" .none, .field k!"mask" .none, .field k!"max" .none, .field k!"min" .none, .field k!"offset" .none, .field k!"period" .none, .field k!"x" .none]),
     [(k!"getDataFilterType", .get k!"dataFilterType") /- 100 -/,
      (k!"setDataFilterType", .set k!"dataFilterType" true) /- 106 -/,
      (k!"getMask", .get k!"mask") /- 115 -/,
      (k!"setMask", .set k!"mask" true) /- 121 -/,
      (k!"getMax", .get k!"max") /- 130 -/,
      (k!"setMax", .set k!"max" true) /- 136 -/,
      (k!"getMin", .get k!"min") /- 145 -/,
      (k!"setMin", .set k!"min" true) /- 151 -/,
      (k!"getOffset", .get k!"offset") /- 160 -/,
      (k!"setOffset", .set k!"offset" true) /- 166 -/,
      (k!"getPeriod", .get k!"period") /- 175 -/,
      (k!"setPeriod", .set k!"period" true) /- 181 -/,
      (k!"getX", .get k!"x") /- 190 -/,
      (k!"setX", .set k!"x" true) /- 196 -/]⟩
    .nil)
   -- M2/AUTOSARTemplates/SystemTemplate/Fibex/Fibex4Ethernet/NetworkEndpoint.py:228
   k!"DoIpEntity" ⟨false, some (0, [.sup 0, .field k!"doIpEntityRole" .none]),
     [(k!"getDoIpEntityRole", .get k!"doIpEntityRole") /- 245 -/,
      (k!"setDoIpEntityRole", .set k!"doIpEntityRole" true) /- 248 -/]⟩
   (.node .nil
    -- M2/AUTOSARTemplates/SystemTemplate/ECUResourceMapping.py:4
    k!"ECUMapping" ⟨false, some (2, [.sup 2, .field k!"commControllerMappings" .nil, .field k!"ecuRef" .none, .field k!"ecuInstanceRef" .none, .field k!"hwPortMappings" .nil]),
     [(k!"getCommControllerMappings", .get k!"commControllerMappings") /- 30 -/,
      (k!"setCommControllerMappings", .set k!"commControllerMappings" true) /- 33 -/,
      (k!"getEcuRef", .get k!"ecuRef") /- 38 -/,
      (k!"setEcuRef", .set k!"ecuRef" true) /- 41 -/,
      (k!"getEcuInstanceRef", .get k!"ecuInstanceRef") /- 46 -/,
      (k!"setEcuInstanceRef", .set k!"ecuInstanceRef" true) /- 49 -/,
      (k!"getHwPortMappings", .get k!"hwPortMappings") /- 54 -/,
      (k!"setHwPortMappings", .set k!"hwPortMappings" true) /- 57 -/]⟩
    .nil))
  -- M2/AUTOSARTemplates/EcuResourceTemplate/HwElementCategory.py:121
  k!"HwCategory" ⟨false, some (2, [.base k!"PackageableElement" 2, .base k!"AtpDefinition" 2, .field k!"hwAttributeDefs" .nil]),
     [(k!"getHwAttributeDefs", .get k!"hwAttributeDefs") /- 145 -/,
      (k!"createHwAttributeDef", .other) /- 154 -/]⟩
  (.node (.node .nil
    -- M2/AUTOSARTemplates/EcuResourceTemplate/__init__.py:264
    k!"HwPinGroup" ⟨false, some (2, [.sup 2, .field k!"hwPinGroupContent" .none]),
     [(k!"getHwPinGroupContent", .get k!"hwPinGroupContent") /- 293 -/,
      (k!"setHwPinGroupContent", .set k!"hwPinGroupContent" true) /- 302 -/]⟩
    .nil)
   -- M2/AUTOSARTemplates/SystemTemplate/Fibex/FibexCore/CoreCommunication.py:1070
   k!"IPduTiming" ⟨false, some (0, [.sup 0, .field k!"minimumDelay" .none, .field k!"transmissionModeDeclaration" .none]),
     [(k!"getMinimumDelay", .get k!"minimumDelay") /- 1094 -/,
      (k!"setMinimumDelay", .set k!"minimumDelay" true) /- 1100 -/,
      (k!"getTransmissionModeDeclaration", .get k!"transmissionModeDeclaration") /- 1109 -/,
      (k!"setTransmissionModeDeclaration", .set k!"transmissionModeDeclaration" true) /- 1115 -/]⟩
   (.node .nil
    -- M2/AUTOSARTemplates/GenericStructure/GeneralTemplateClasses/PrimitiveTypes.py:754
    k!"Identifier" ⟨false, some (0, [.sup 0, .field k!"blueprintValue" .none, .field k!"namePattern" .none]),
     [(k!"getBlueprintValue", .get k!"blueprintValue") /- 778 -/,
      (k!"setBlueprintValue", .set k!"blueprintValue" true) /- 787 -/,
      (k!"getNamePattern", .get k!"namePattern") /- 800 -/,
      (k!"setNamePattern", .set k!"namePattern" true) /- 809 -/]⟩
    .nil))))

def accTable11 : Bst (ClassAcc) :=
 (.node (.node (.node (.node .nil
    -- M2/AUTOSARTemplates/SystemTemplate/NetworkManagement.py:763
    k!"J1939NmEcu" ⟨false, some (0, [.sup 0]),
     []⟩
    .nil)
   -- M2/AUTOSARTemplates/CommonStructure/StandardizationTemplate/Keyword.py:91
   k!"KeywordSet" ⟨false, some (2, [.sup 2, .field k!"keywords" .nil]),
     [(k!"getKeywords", .get k!"keywords") /- 115 -/,
      (k!"createKeyword", .other) /- 124 -/]⟩
   (.node .nil
    -- M2/MSR/Documentation/TextModel/LanguageDataModel.py:207
    k!"LParagraph" ⟨false, some (0, [.sup 0]),
     []⟩
    .nil))
  -- M2/MSR/Documentation/TextModel/LanguageDataModel.py:366
  k!"LPlainText" ⟨false, some (0, [.sup 0]),
     []⟩
  (.node (.node .nil
    -- M2/AUTOSARTemplates/SystemTemplate/Fibex/FibexCore/CoreTopology.py:699
    k!"LinCluster" ⟨false, some (2, [.sup 2]),
     []⟩
    .nil)
   -- M2/AUTOSARTemplates/CommonStructure/MeasurementCalibrationSupport/__init__.py:711
   k!"McFunction" ⟨false, some (2, [.sup 2, .field k!"defCalprmSet" .none, .field k!"inMeasurementSet" .none, .field k!"locMeasurementSet" .none, .field k!"outMeasurementSet" .none, .field k!"refCalprmSet" .none, .field k!"subFunctionRefs" .nil]),
     [(k!"getDefCalprmSet", .get k!"defCalprmSet") /- 761 -/,
      (k!"setDefCalprmSet", .set k!"defCalprmSet" true) /- 770 -/,
      (k!"getInMeasurementSet", .get k!"inMeasurementSet") /- 785 -/,
      (k!"setInMeasurementSet", .set k!"inMeasurementSet" true) /- 794 -/,
      (k!"getLocMeasurementSet", .get k!"locMeasurementSet") /- 809 -/,
      (k!"setLocMeasurementSet", .set k!"locMeasurementSet" true) /- 818 -/,
      (k!"getOutMeasurementSet", .get k!"outMeasurementSet") /- 833 -/,
      (k!"setOutMeasurementSet", .set k!"outMeasurementSet" true) /- 842 -/,
      (k!"getRefCalprmSet", .get k!"refCalprmSet") /- 857 -/,
      (k!"setRefCalprmSet", .set k!"refCalprmSet" true) /- 866 -/,
      (k!"addSubFunctionRef", .add k!"subFunctionRefs" true false) /- 881 -/,
      (k!"getSubFunctionRefs", .get k!"subFunctionRefs") /- 896 -/]⟩
   (.node .nil
    -- M2/MSR/Documentation/TextModel/MsrQuery.py:232
    k!"MsrQueryP1" ⟨false, some (0, [.sup 0]),
     []⟩
    .nil)))
 -- M2/MSR/Documentation/TextModel/MsrQuery.py:167
 k!"MsrQueryP2" ⟨false, some (0, [.sup 0, .field k!"msrQueryProps" .none, .field k!"msrQueryResultP2" .none]),
     [(k!"getMsrQueryProps", .get k!"msrQueryProps") /- 191 -/,
      (k!"setMsrQueryProps", .set k!"msrQueryProps" true) /- 200 -/,
      (k!"getMsrQueryResultP2", .get k!"msrQueryResultP2") /- 211 -/,
      (k!"setMsrQueryResultP2", .set k!"msrQueryResultP2" true) /- 220 -/]⟩
 (.node (.node (.node .nil
    -- M2/MSR/Documentation/BlockElements/OasisExchangeTable.py:33
    k!"PgwideEnum" ⟨false, some (0, [.sup 1]),
     []⟩
    .nil)
   -- M2/AUTOSARTemplates/GenericStructure/GeneralTemplateClasses/Identifiable.py:21
   k!"Referrable" ⟨true, some (2, [.guard k!"Referrable", .base k!"ARObject" 0, .field k!"parent" .arg, .field k!"short_name" .arg, .field k!"shortNameFragments" .nil]),
     [(k!"getShortName", .get k!"short_name") /- 57 -/,
      (k!"getParent", .get k!"parent") /- 66 -/,
      (k!"getFullName", .other) /- 82 -/,
      (k!"addShortNameFragment", .add k!"shortNameFragments" true false) /- 91 -/,
      (k!"getShortNameFragments", .get k!"shortNameFragments") /- 106 -/]⟩
   (.node .nil
    -- M2/MSR/AsamHdo/SpecialData.py:81
    k!"SdgCaption" ⟨false, some (2, [.sup 2, .field k!"desc" .none]),
     [(k!"getDesc", .get k!"desc") /- 100 -/,
      (k!"setDesc", .set k!"desc" true) /- 106 -/]⟩
    .nil))
  -- M2/AUTOSARTemplates/SystemTemplate/Fibex/Fibex4Ethernet/ServiceInstances.py:1362
  k!"SoAdConfig" ⟨false, some (0, [.sup 0, .field k!"connections" .nil, .field k!"connectionBundles" .nil, .field k!"socketAddresses" .nil]),
     [(k!"getConnections", .get k!"connections") /- 1386 -/,
      (k!"setConnections", .set k!"connections" false) /- 1389 -/,
      (k!"getConnectionBundles", .get k!"connectionBundles") /- 1393 -/,
      (k!"createSocketConnectionBundle", .other) /- 1396 -/,
      (k!"setConnectionBundles", .set k!"connectionBundles" false) /- 1401 -/,
      (k!"getSocketAddresses", .get k!"socketAddresses") /- 1405 -/,
      (k!"createSocketAddress", .other) /- 1408 -/]⟩
  (.node (.node .nil
    -- M2/AUTOSARTemplates/CommonStructure/ResourceConsumption/StackUsage.py:18
    k!"StackUsage" ⟨true, some (2, [.guard k!"StackUsage", .sup 2, .field k!"executableEntityRef" .none, .field k!"hardwareConfiguration" .none, .field k!"hwElementRef" .none, .field k!"softwareContext" .none]),
     [(k!"getExecutableEntityRef", .get k!"executableEntityRef") /- 62 -/,
      (k!"setExecutableEntityRef", .set k!"executableEntityRef" true) /- 71 -/,
      (k!"getHardwareConfiguration", .get k!"hardwareConfiguration") /- 86 -/,
      (k!"setHardwareConfiguration", .set k!"hardwareConfiguration" true) /- 96 -/,
      (k!"getHwElementRef", .get k!"hwElementRef") /- 112 -/,
      (k!"setHwElementRef", .set k!"hwElementRef" true) /- 121 -/,
      (k!"getSoftwareContext", .get k!"softwareContext") /- 136 -/,
      (k!"setSoftwareContext", .set k!"softwareContext" true) /- 145 -/]⟩
    .nil)
   -- M2/AUTOSARTemplates/SystemTemplate/Fibex/FibexCore/CoreCommunication.py:1805
   k!"StaticPart" ⟨false, some (0, [.sup 0, .field k!"iPduRef" .none]),
     [(k!"getIPduRef", .get k!"iPduRef") /- 1822 -/,
      (k!"setIPduRef", .set k!"iPduRef" true) /- 1825 -/]⟩
   (.node .nil
    -- M2/MSR/AsamHdo/BaseTypes.py:190
    k!"SwBaseType" ⟨false, some (2, [.sup 2]),
     []⟩
    .nil))))

-- M2/MSR/Documentation/TextModel/InlineTextElements.py:114
def accTable12 : Bst (ClassAcc) :=
 .node accTable10 k!"IndexEntry" ⟨false, some (0, [.sup 0, .field k!"value" .none, .field k!"sub" .none, .field k!"sup" .none]),
     [(k!"getValue", .get k!"value") /- 143 -/,
      (k!"setValue", .set k!"value" true) /- 152 -/,
      (k!"getSub", .get k!"sub") /- 163 -/,
      (k!"setSub", .set k!"sub" true) /- 172 -/,
      (k!"getSup", .get k!"sup") /- 183 -/,
      (k!"setSup", .set k!"sup" true) /- 192 -/]⟩ accTable11

-- M2/MSR/DataDictionary/DataDefProperties.py:1072
def accTable13 : Bst (ClassAcc) :=
 .node accTable09 k!"ValueList" ⟨false, some (0, [.sup 0, .field k!"v" .none, .field k!"_vf" .nil]),
     [(k!"getV", .get k!"v") /- 1090 -/,
      (k!"setV", .set k!"v" true) /- 1093 -/,
      (k!"addVf", .add k!"_vf" false false) /- 1098 -/,
      (k!"getVfs", .other) /- 1101 -/]⟩ accTable12

-- M2/AUTOSARTemplates/SWComponentTemplate/SwcInternalBehavior/RTEEvents.py:18
def accTable14 : Bst (ClassAcc) :=
 .node accTable06 k!"RTEEvent" ⟨true, some (2, [.guard k!"RTEEvent", .sup 2, .field k!"disabledModeIRefs" .nil, .field k!"startOnEventRef" .none]),
     [(k!"getDisabledModeIRefs", .get k!"disabledModeIRefs") /- 38 -/,
      (k!"addDisabledModeIRef", .add k!"disabledModeIRefs" false false) /- 47 -/,
      (k!"getStartOnEventRef", .get k!"startOnEventRef") /- 60 -/,
      (k!"setStartOnEventRef", .set k!"startOnEventRef" false) /- 69 -/]⟩ accTable13

def accTable15 : Bst (ClassAcc) :=
 (.node (.node (.node (.node (.node .nil
     -- M2/AUTOSARTemplates/GenericStructure/GeneralTemplateClasses/PrimitiveTypes.py:74
     k!"ARNumerical" ⟨false, some (0, [.sup 0, .field k!"shortLabel" .none, .field k!"_text" .none]),
     [(k!"_convertStringToNumberValue", .other) /- 96 -/,
      (k!"getValue", .other) /- 149 -/,
      (k!"setShortLabel", .set k!"shortLabel" true) /- 158 -/,
      (k!"getShortLabel", .get k!"shortLabel") /- 173 -/]⟩
     .nil)
    -- M2/AUTOSARTemplates/SWComponentTemplate/SwcInternalBehavior/AccessCount.py:88
    k!"AccessCount" ⟨false, some (0, [.sup 0, .field k!"accessPointRef" .none, .field k!"value" .none]),
     [(k!"getAccessPointRef", .get k!"accessPointRef") /- 115 -/,
      (k!"setAccessPointRef", .set k!"accessPointRef" true) /- 124 -/,
      (k!"getValue", .get k!"value") /- 139 -/,
      (k!"setValue", .set k!"value" true) /- 148 -/]⟩
    .nil)
   -- M2/AUTOSARTemplates/BswModuleTemplate/BswInterfaces.py:39
   k!"BswCallType" ⟨false, some (0, [.sup 1]),
     []⟩
   (.node .nil
    -- M2/AUTOSARTemplates/CommonStructure/ServiceNeeds.py:2089
    k!"BswMgrNeeds" ⟨false, some (2, [.sup 2]),
     []⟩
    .nil))
  -- M2/AUTOSARTemplates/GenericStructure/GeneralTemplateClasses/PrimitiveTypes.py:823
  k!"CIdentifier" ⟨false, some (0, [.sup 0, .field k!"blueprintValue" .none, .field k!"namePattern" .none]),
     [(k!"getBlueprintValue", .get k!"blueprintValue") /- 846 -/,
      (k!"setBlueprintValue", .set k!"blueprintValue" false) /- 855 -/,
      (k!"getNamePattern", .get k!"namePattern") /- 868 -/,
      (k!"setNamePattern", .set k!"namePattern" false) /- 877 -/]⟩
  (.node (.node .nil
    -- M2/AUTOSARTemplates/SystemTemplate/TransportProtocols.py:468
    k!"CanTpConfig" ⟨false, some (2, [.sup 2, .field k!"tpAddresses" .nil, .field k!"tpChannels" .nil, .field k!"tpConnections" .nil, .field k!"tpEcus" .nil, .field k!"tpNodes" .nil]),
     [(k!"getTpAddresses", .get k!"tpAddresses") /- 497 -/,
      (k!"createCanTpAddress", .other) /- 500 -/,
      (k!"getTpChannels", .get k!"tpChannels") /- 507 -/,
      (k!"createCanTpChannel", .other) /- 510 -/,
      (k!"getTpConnections", .get k!"tpConnections") /- 517 -/,
      (k!"addTpConnection", .add k!"tpConnections" true false) /- 520 -/,
      (k!"getTpEcus", .get k!"tpEcus") /- 525 -/,
      (k!"addTpEcu", .add k!"tpEcus" true false) /- 528 -/,
      (k!"getTpNodes", .get k!"tpNodes") /- 533 -/,
      (k!"createCanTpNode", .other) /- 536 -/]⟩
    .nil)
   -- M2/MSR/AsamHdo/ComputationMethod.py:429
   k!"CompuMethod" ⟨false, some (2, [.sup 2, .field k!"compuInternalToPhys" .none, .field k!"compuPhysToInternal" .none, .field k!"displayFormat" .none, .field k!"unitRef" .none]),
     [(k!"getCompuInternalToPhys", .get k!"compuInternalToPhys") /- 456 -/,
      (k!"setCompuInternalToPhys", .set k!"compuInternalToPhys" false) /- 459 -/,
      (k!"getCompuPhysToInternal", .get k!"compuPhysToInternal") /- 463 -/,
      (k!"setCompuPhysToInternal", .set k!"compuPhysToInternal" false) /- 466 -/,
      (k!"getDisplayFormat", .get k!"displayFormat") /- 470 -/,
      (k!"setDisplayFormat", .set k!"displayFormat" false) /- 473 -/,
      (k!"getUnitRef", .get k!"unitRef") /- 477 -/,
      (k!"setUnitRef", .set k!"unitRef" false) /- 480 -/]⟩
   (.node .nil
    -- M2/MSR/AsamHdo/ComputationMethod.py:406
    k!"CompuScales" ⟨false, some (0, [.sup 0, .field k!"compuScales" .nil]),
     [(k!"addCompuScale", .add k!"compuScales" false false) /- 422 -/,
      (k!"getCompuScales", .get k!"compuScales") /- 425 -/]⟩
    .nil)))
 -- M2/AUTOSARTemplates/GenericStructure/GeneralTemplateClasses/PrimitiveTypes.py:422
 k!"CseCodeType" ⟨false, some (0, [.sup 0]),
     []⟩
 (.node (.node (.node .nil
    -- M2/AUTOSARTemplates/SystemTemplate/DataMapping.py:14
    k!"DataMapping" ⟨true, some (0, [.guard k!"DataMapping", .sup 0, .field k!"introduction" .none]),
     [(k!"getIntroduction", .get k!"introduction") /- 35 -/,
      (k!"setIntroduction", .set k!"introduction" false) /- 38 -/]⟩
    .nil)
   -- M2/AUTOSARTemplates/SWComponentTemplate/Datatype/Datatypes.py:220
   k!"DataTypeMap" ⟨false, some (0, [.field k!"applicationDataTypeRef" .none, .field k!"implementationDataTypeRef" .none]),
     [(k!"getApplicationDataTypeRef", .get k!"applicationDataTypeRef") /- 237 -/,
      (k!"setApplicationDataTypeRef", .set k!"applicationDataTypeRef" false) /- 240 -/,
      (k!"getImplementationDataTypeRef", .get k!"implementationDataTypeRef") /- 244 -/,
      (k!"setImplementationDataTypeRef", .set k!"implementationDataTypeRef" false) /- 247 -/]⟩
   (.node .nil
    -- M2/AUTOSARTemplates/GenericStructure/GeneralTemplateClasses/Identifiable.py:654
    k!"Describable" ⟨true, some (0, [.guard k!"Describable", .sup 0, .field k!"adminData" .none, .field k!"category" .none, .field k!"desc" .none, .field k!"introduction" .none]),
     [(k!"getAdminData", .get k!"adminData") /- 692 -/,
      (k!"setAdminData", .set k!"adminData" true) /- 698 -/,
      (k!"removeAdminData", .other) /- 712 -/,
      (k!"getCategory", .get k!"category") /- 718 -/,
      (k!"setCategory", .set k!"category" true) /- 724 -/,
      (k!"getDesc", .get k!"desc") /- 738 -/,
      (k!"setDesc", .set k!"desc" true) /- 744 -/,
      (k!"getIntroduction", .get k!"introduction") /- 758 -/,
      (k!"setIntroduction", .set k!"introduction" true) /- 764 -/]⟩
    .nil))
  -- M2/MSR/AsamHdo/AdminData.py:45
  k!"DocRevision" ⟨false, some (0, [.sup 0, .field k!"date" .none, .field k!"issuedBy" .none, .field k!"modifications" .nil, .field k!"revisionLabel" .none, .field k!"revisionLabelP1" .none, .field k!"revisionLabelP2" .none, .field k!"state" .none]),
     [(k!"getDate", .get k!"date") /- 80 -/,
      (k!"setDate", .set k!"date" true) /- 83 -/,
      (k!"getIssuedBy", .get k!"issuedBy") /- 88 -/,
      (k!"setIssuedBy", .set k!"issuedBy" true) /- 91 -/,
      (k!"getModifications", .get k!"modifications") /- 96 -/,
      (k!"addModification", .add k!"modifications" true false) /- 99 -/,
      (k!"getRevisionLabel", .get k!"revisionLabel") /- 104 -/,
      (k!"setRevisionLabel", .set k!"revisionLabel" true) /- 107 -/,
      (k!"getRevisionLabelP1", .get k!"revisionLabelP1") /- 112 -/,
      (k!"setRevisionLabelP1", .set k!"revisionLabelP1" true) /- 115 -/,
      (k!"getRevisionLabelP2", .get k!"revisionLabelP2") /- 120 -/,
      (k!"setRevisionLabelP2", .set k!"revisionLabelP2" true) /- 123 -/,
      (k!"getState", .get k!"state") /- 128 -/,
      (k!"setState", .set k!"state" true) /- 131 -/]⟩
  (.node (.node .nil
    -- M2/AUTOSARTemplates/CommonStructure/ServiceNeeds.py:1459
    k!"DtcKindEnum" ⟨false, some (0, [.sup 1]),
     []⟩
    .nil)
   -- M2/AUTOSARTemplates/SystemTemplate/Fibex/FibexCore/CoreCommunication.py:1879
   k!"DynamicPart" ⟨false, some (0, [.sup 0, .field k!"dynamicPartAlternatives" .nil]),
     [(k!"getDynamicPartAlternatives", .get k!"dynamicPartAlternatives") /- 1896 -/,
      (k!"addDynamicPartAlternative", .add k!"dynamicPartAlternatives" true false) /- 1899 -/]⟩
   (.node .nil
    -- M2/AUTOSARTemplates/CommonStructure/Timing/TimingConstraint/ExecutionOrderConstraint.py:116
    k!"EOCEventRef" ⟨false, some (0, [.sup 0, .field k!"eventRef" .none]),
     [(k!"getEventRef", .get k!"eventRef") /- 134 -/,
      (k!"setEventRef", .set k!"eventRef" false) /- 143 -/]⟩
    .nil))))

def accTable16 : Bst (ClassAcc) :=
 (.node (.node (.node (.node (.node .nil
     -- M2/AUTOSARTemplates/SystemTemplate/Fibex/Fibex4Multiplatform.py:193
     k!"IPduMapping" ⟨false, some (0, [.sup 0, .field k!"introduction" .none, .field k!"pdurTpChunkSize" .none, .field k!"sourceIpduRef" .none, .field k!"targetIPdu" .none]),
     [(k!"getIntroduction", .get k!"introduction") /- 218 -/,
      (k!"setIntroduction", .set k!"introduction" true) /- 221 -/,
      (k!"getPdurTpChunkSize", .get k!"pdurTpChunkSize") /- 226 -/,
      (k!"setPdurTpChunkSize", .set k!"pdurTpChunkSize" true) /- 229 -/,
      (k!"getSourceIpduRef", .get k!"sourceIpduRef") /- 234 -/,
      (k!"setSourceIpduRef", .set k!"sourceIpduRef" true) /- 237 -/,
      (k!"getTargetIPdu", .get k!"targetIPdu") /- 242 -/,
      (k!"setTargetIPdu", .set k!"targetIPdu" true) /- 245 -/]⟩
     .nil)
    -- M2/AUTOSARTemplates/SystemTemplate/Fibex/FibexCore/CoreCommunication.py:1125
    k!"ISignalIPdu" ⟨false, some (2, [.sup 2, .field k!"iPduTimingSpecification" .none, .field k!"iSignalToPduMappings" .nil, .field k!"unusedBitPattern" .none]),
     [(k!"getIPduTimingSpecification", .get k!"iPduTimingSpecification") /- 1154 -/,
      (k!"setIPduTimingSpecification", .set k!"iPduTimingSpecification" true) /- 1160 -/,
      (k!"getISignalToPduMappings", .get k!"iSignalToPduMappings") /- 1169 -/,
      (k!"createISignalToPduMappings", .other) /- 1175 -/,
      (k!"getUnusedBitPattern", .get k!"unusedBitPattern") /- 1185 -/,
      (k!"setUnusedBitPattern", .set k!"unusedBitPattern" true) /- 1191 -/]⟩
    .nil)
   -- M2/AUTOSARTemplates/SystemTemplate/Fibex/FibexCore/CoreTopology.py:908
   k!"ISignalPort" ⟨false, some (2, [.sup 2, .field k!"dataFilter" .none, .field k!"ddsQosProfileRef" .none, .field k!"firstTimeout" .none, .field k!"handleInvalid" .none, .field k!"timeout" .none]),
     [(k!"getDataFilter", .get k!"dataFilter") /- 937 -/,
      (k!"setDataFilter", .set k!"dataFilter" true) /- 940 -/,
      (k!"getDdsQosProfileRef", .get k!"ddsQosProfileRef") /- 945 -/,
      (k!"setDdsQosProfileRef", .set k!"ddsQosProfileRef" true) /- 948 -/,
      (k!"getFirstTimeout", .get k!"firstTimeout") /- 953 -/,
      (k!"setFirstTimeout", .set k!"firstTimeout" true) /- 956 -/,
      (k!"getHandleInvalid", .get k!"handleInvalid") /- 961 -/,
      (k!"setHandleInvalid", .set k!"handleInvalid" true) /- 964 -/,
      (k!"getTimeout", .get k!"timeout") /- 969 -/,
      (k!"setTimeout", .set k!"timeout" true) /- 972 -/]⟩
   (.node .nil
    -- M2/AUTOSARTemplates/CommonStructure/ServiceNeeds.py:3302
    k!"IdsMgrNeeds" ⟨false, some (2, [.sup 2, .field k!"useSmartSensorApi" .none]),
     [(k!"getUseSmartSensorApi", .get k!"useSmartSensorApi") /- 3320 -/,
      (k!"setUseSmartSensorApi", .set k!"useSmartSensorApi" true) /- 3329 -/]⟩
    .nil))
  -- M2/AUTOSARTemplates/SystemTemplate/NetworkManagement.py:629
  k!"J1939NmNode" ⟨false, some (2, [.sup 2, .field k!"addressConfigurationCapability" .none, .field k!"nodeName" .none]),
     [(k!"getAddressConfigurationCapability", .get k!"addressConfigurationCapability") /- 653 -/,
      (k!"setAddressConfigurationCapability", .set k!"addressConfigurationCapability" true) /- 659 -/,
      (k!"getNodeName", .get k!"nodeName") /- 668 -/,
      (k!"setNodeName", .set k!"nodeName" true) /- 674 -/]⟩
  (.node (.node .nil
    -- M2/MSR/Documentation/TextModel/BlockElements/ListElements.py:183
    k!"LabeledItem" ⟨false, some (0, [.sup 0, .field k!"helpEntry" .none, .field k!"itemContents" .none, .field k!"itemLabel" .none]),
     [(k!"getHelpEntry", .get k!"helpEntry") /- 212 -/,
      (k!"setHelpEntry", .set k!"helpEntry" true) /- 221 -/,
      (k!"getItemContents", .get k!"itemContents") /- 232 -/,
      (k!"setItemContents", .set k!"itemContents" true) /- 241 -/,
      (k!"getItemLabel", .get k!"itemLabel") /- 252 -/,
      (k!"setItemLabel", .set k!"itemLabel" true) /- 261 -/]⟩
    .nil)
   -- M2/MSR/Documentation/TextModel/BlockElements/ListElements.py:273
   k!"LabeledList" ⟨false, some (0, [.sup 0, .field k!"indentSample" .none, .field k!"labeledItems" .nil]),
     [(k!"getIndentSample", .get k!"indentSample") /- 297 -/,
      (k!"setIndentSample", .set k!"indentSample" true) /- 306 -/,
      (k!"addLabeledItem", .add k!"labeledItems" true false) /- 317 -/,
      (k!"getLabeledItems", .get k!"labeledItems") /- 328 -/]⟩
   (.node .nil
    -- M2/AUTOSARTemplates/SystemTemplate/TransportProtocols.py:888
    k!"LinTpConfig" ⟨false, some (2, [.sup 2, .field k!"tpAddresses" .nil, .field k!"tpConnections" .nil, .field k!"tpNodes" .nil]),
     [(k!"getTpAddresses", .get k!"tpAddresses") /- 911 -/,
      (k!"createTpAddress", .other) /- 914 -/,
      (k!"getTpConnections", .get k!"tpConnections") /- 921 -/,
      (k!"addTpConnection", .add k!"tpConnections" true false) /- 924 -/,
      (k!"getTpNodes", .get k!"tpNodes") /- 929 -/,
      (k!"createLinTpNode", .other) /- 932 -/]⟩
    .nil)))
 -- M2/MSR/Documentation/TextModel/MsrQuery.py:12
 k!"MsrQueryArg" ⟨false, some (0, [.sup 0, .field k!"arg" .none, .field k!"si" .none]),
     [(k!"getArg", .get k!"arg") /- 36 -/,
      (k!"setArg", .set k!"arg" true) /- 45 -/,
      (k!"getSi", .get k!"si") /- 56 -/,
      (k!"setSi", .set k!"si" true) /- 65 -/]⟩
 (.node (.node (.node .nil
    -- M2/MSR/AsamHdo/Constraints/GlobalConstraints.py:294
    k!"PhysConstrs" ⟨false, some (0, [.sup 0, .field k!"lowerLimit" .none, .field k!"maxDiff" .none, .field k!"maxGradient" .none, .field k!"monotony" .none, .field k!"scaleConstrs" .nil, .field k!"unitRef" .none, .field k!"upperLimit" .none]),
     [(k!"getLowerLimit", .get k!"lowerLimit") /- 343 -/,
      (k!"setLowerLimit", .set k!"lowerLimit" true) /- 349 -/,
      (k!"getMaxDiff", .get k!"maxDiff") /- 357 -/,
      (k!"setMaxDiff", .set k!"maxDiff" true) /- 363 -/,
      (k!"getMaxGradient", .get k!"maxGradient") /- 371 -/,
      (k!"setMaxGradient", .set k!"maxGradient" true) /- 377 -/,
      (k!"getMonotony", .get k!"monotony") /- 385 -/,
      (k!"setMonotony", .set k!"monotony" true) /- 391 -/,
      (k!"addScaleConstr", .add k!"scaleConstrs" true false) /- 399 -/,
      (k!"getScaleConstrs", .get k!"scaleConstrs") /- 407 -/,
      (k!"getUnitRef", .get k!"unitRef") /- 413 -/,
      (k!"setUnitRef", .set k!"unitRef" true) /- 419 -/,
      (k!"getUpperLimit", .get k!"upperLimit") /- 427 -/,
      (k!"setUpperLimit", .set k!"upperLimit" true) /- 433 -/]⟩
    .nil)
   -- M2/MSR/AsamHdo/Constraints/GlobalConstraints.py:184
   k!"ScaleConstr" ⟨false, some (0, [.sup 0, .field k!"desc" .none, .field k!"lowerLimit" .none, .field k!"shortLabel" .none, .field k!"upperLimit" .none, .field k!"validity" .none]),
     [(k!"getDesc", .get k!"desc") /- 223 -/,
      (k!"setDesc", .set k!"desc" true) /- 229 -/,
      (k!"getLowerLimit", .get k!"lowerLimit") /- 237 -/,
      (k!"setLowerLimit", .set k!"lowerLimit" true) /- 243 -/,
      (k!"getShortLabel", .get k!"shortLabel") /- 251 -/,
      (k!"setShortLabel", .set k!"shortLabel" true) /- 257 -/,
      (k!"getUpperLimit", .get k!"upperLimit") /- 265 -/,
      (k!"setUpperLimit", .set k!"upperLimit" true) /- 271 -/,
      (k!"getValidity", .get k!"validity") /- 279 -/,
      (k!"setValidity", .set k!"validity" true) /- 285 -/]⟩
   (.node .nil
    -- M2/MSR/AsamHdo/SpecialData.py:168
    k!"SdgContents" ⟨false, some (0, [.sup 0, .field k!"sd" .nil, .field k!"sdf" .nil, .field k!"sdg" .nil, .field k!"sdxRefs" .nil, .field k!"sdxfRefs" .nil]),
     [(k!"addSd", .add k!"sd" true false) /- 207 -/,
      (k!"getSds", .get k!"sd") /- 215 -/,
      (k!"addSdf", .add k!"sdf" true false) /- 221 -/,
      (k!"getSdfs", .get k!"sdf") /- 229 -/,
      (k!"addSdg", .add k!"sdg" true false) /- 235 -/,
      (k!"getSdgs", .get k!"sdg") /- 243 -/,
      (k!"addSdxRef", .add k!"sdxRefs" true false) /- 249 -/,
      (k!"getSdxRefs", .get k!"sdxRefs") /- 257 -/,
      (k!"addSdxfRef", .add k!"sdxfRefs" true false) /- 263 -/,
      (k!"getSdxfRefs", .get k!"sdxfRefs") /- 271 -/]⟩
    .nil))
  -- M2/AUTOSARTemplates/SystemTemplate/Fibex/FibexCore/CoreCommunication.py:709
  k!"SecuredIPdu" ⟨false, some (2, [.sup 2, .field k!"authenticationPropsRef" .none, .field k!"dynamicRuntimeLengthHandling" .none, .field k!"freshnessPropsRef" .none, .field k!"payloadRef" .none, .field k!"secureCommunicationProps" .none, .field k!"useAsCryptographicIPdu" .none, .field k!"useSecuredPduHeader" .none]),
     [(k!"getAuthenticationPropsRef", .get k!"authenticationPropsRef") /- 744 -/,
      (k!"setAuthenticationPropsRef", .set k!"authenticationPropsRef" true) /- 747 -/,
      (k!"getDynamicRuntimeLengthHandling", .get k!"dynamicRuntimeLengthHandling") /- 752 -/,
      (k!"setDynamicRuntimeLengthHandling", .set k!"dynamicRuntimeLengthHandling" true) /- 755 -/,
      (k!"getFreshnessPropsRef", .get k!"freshnessPropsRef") /- 760 -/,
      (k!"setFreshnessPropsRef", .set k!"freshnessPropsRef" true) /- 763 -/,
      (k!"getPayloadRef", .get k!"payloadRef") /- 768 -/,
      (k!"setPayloadRef", .set k!"payloadRef" true) /- 771 -/,
      (k!"getSecureCommunicationProps", .get k!"secureCommunicationProps") /- 776 -/,
      (k!"setSecureCommunicationProps", .set k!"secureCommunicationProps" true) /- 779 -/,
      (k!"getUseAsCryptographicIPdu", .get k!"useAsCryptographicIPdu") /- 784 -/,
      (k!"setUseAsCryptographicIPdu", .set k!"useAsCryptographicIPdu" true) /- 787 -/,
      (k!"getUseSecuredPduHeader", .get k!"useSecuredPduHeader") /- 792 -/,
      (k!"setUseSecuredPduHeader", .set k!"useSecuredPduHeader" true) /- 795 -/]⟩
  (.node (.node .nil
    -- M2/MSR/Documentation/TextModel/InlineTextElements.py:9
    k!"Superscript" ⟨false, some (0, [.sup 0]),
     []⟩
    .nil)
   -- M2/AUTOSARTemplates/SWComponentTemplate/Composition/__init__.py:38
   k!"SwConnector" ⟨true, some (2, [.guard k!"SwConnector", .sup 2, .field k!"mappingRef" .none]),
     [(k!"getMappingRef", .get k!"mappingRef") /- 59 -/,
      (k!"setMappingRef", .set k!"mappingRef" true) /- 68 -/]⟩
   (.node .nil
    -- M2/MSR/DataDictionary/DataDefProperties.py:1105
    k!"SwTextProps" ⟨false, some (0, [.sup 0, .field k!"arraySizeSemantics" .none, .field k!"baseTypeRef" .none, .field k!"swFillCharacter" .none, .field k!"swMaxTextSize" .none]),
     [(k!"getArraySizeSemantics", .get k!"arraySizeSemantics") /- 1139 -/,
      (k!"setArraySizeSemantics", .set k!"arraySizeSemantics" true) /- 1145 -/,
      (k!"getBaseTypeRef", .get k!"baseTypeRef") /- 1153 -/,
      (k!"setBaseTypeRef", .set k!"baseTypeRef" true) /- 1159 -/,
      (k!"getSwFillCharacter", .get k!"swFillCharacter") /- 1167 -/,
      (k!"setSwFillCharacter", .set k!"swFillCharacter" true) /- 1173 -/,
      (k!"getSwMaxTextSize", .get k!"swMaxTextSize") /- 1181 -/,
      (k!"setSwMaxTextSize", .set k!"swMaxTextSize" true) /- 1187 -/]⟩
    .nil))))

-- M2/AUTOSARTemplates/SystemTemplate/Fibex/FibexCore/EcuInstance.py:11
def accTable17 : Bst (ClassAcc) :=
 .node accTable15 k!"EcuInstance" ⟨false, some (2, [.sup 2, .field k!"associatedComIPduGroupRefs" .nil, .field k!"associatedConsumedProvidedServiceInstanceGroupRefs" .nil, .field k!"associatedPdurIPduGroupRefs" .nil, .field k!"channelSynchronousWakeup" .none, .field k!"clientIdRange" .none, .field k!"comConfigurationGwTimeBase" .none, .field k!"comConfigurationRxTimeBase" .none, .field k!"comConfigurationTxTimeBase" .none, .field k!"comEnableMDTForCyclicTransmission" .none, .field k!"commControllers" .nil, .field k!"connectors" .nil, .field k!"dltConfig" .none, .field k!"doIpConfig" .none, .field k!"ecuTaskProxyRefs" .nil, .field k!"ethSwitchPortGroupDerivation" .none, .field k!"firewallRuleRefs" .nil, .field k!"partitions" .nil, .field k!"pncNmRequest" .none, .field k!"pncPrepareSleepTimer" .none, .field k!"pncSynchronousWakeup" .none, .field k!"pnResetTime" .none, .field k!"sleepModeSupported" .none, .field k!"tcpIpIcmpPropsRef" .none, .field k!"tcpIpPropsRef" .none, .field k!"v2xSupported" .none, .field k!"wakeUpOverBusSupported" .none]),
     [(k!"getAssociatedComIPduGroupRefs", .get k!"associatedComIPduGroupRefs") /- 110 -/,
      (k!"addAssociatedComIPduGroupRef", .add k!"associatedComIPduGroupRefs" false false) /- 113 -/,
      (k!"getAssociatedConsumedProvidedServiceInstanceGroupRefs", .get k!"associatedConsumedProvidedServiceInstanceGroupRefs") /- 117 -/,
      (k!"addAssociatedConsumedProvidedServiceInstanceGroupRef", .add k!"associatedConsumedProvidedServiceInstanceGroupRefs" false false) /- 120 -/,
      (k!"getAssociatedPdurIPduGroupRefs", .get k!"associatedPdurIPduGroupRefs") /- 124 -/,
      (k!"addAssociatedPdurIPduGroupRef", .add k!"associatedPdurIPduGroupRefs" false false) /- 127 -/,
      (k!"getChannelSynchronousWakeup", .get k!"channelSynchronousWakeup") /- 131 -/,
      (k!"setChannelSynchronousWakeup", .set k!"channelSynchronousWakeup" false) /- 134 -/,
      (k!"getClientIdRange", .get k!"clientIdRange") /- 138 -/,
      (k!"setClientIdRange", .set k!"clientIdRange" false) /- 141 -/,
      (k!"getComConfigurationGwTimeBase", .get k!"comConfigurationGwTimeBase") /- 145 -/,
      (k!"setComConfigurationGwTimeBase", .set k!"comConfigurationGwTimeBase" false) /- 148 -/,
      (k!"getComConfigurationRxTimeBase", .get k!"comConfigurationRxTimeBase") /- 152 -/,
      (k!"setComConfigurationRxTimeBase", .set k!"comConfigurationRxTimeBase" false) /- 155 -/,
      (k!"getComConfigurationTxTimeBase", .get k!"comConfigurationTxTimeBase") /- 159 -/,
      (k!"setComConfigurationTxTimeBase", .set k!"comConfigurationTxTimeBase" false) /- 162 -/,
      (k!"getComEnableMDTForCyclicTransmission", .get k!"comEnableMDTForCyclicTransmission") /- 166 -/,
      (k!"setComEnableMDTForCyclicTransmission", .set k!"comEnableMDTForCyclicTransmission" false) /- 169 -/,
      (k!"getCommControllers", .other) /- 173 -/,
      (k!"createCanCommunicationController", .other) /- 176 -/,
      (k!"createEthernetCommunicationController", .other) /- 182 -/,
      (k!"createLinMaster", .other) /- 188 -/,
      (k!"createFlexrayCommunicationController", .other) /- 194 -/,
      (k!"getConnectors", .other) /- 200 -/,
      (k!"createCanCommunicationConnector", .other) /- 203 -/,
      (k!"createEthernetCommunicationConnector", .other) /- 209 -/,
      (k!"createLinCommunicationConnector", .other) /- 215 -/,
      (k!"createFlexrayCommunicationConnector", .other) /- 221 -/,
      (k!"getDltConfig", .get k!"dltConfig") /- 227 -/,
      (k!"setDltConfig", .set k!"dltConfig" false) /- 230 -/,
      (k!"getDoIpConfig", .get k!"doIpConfig") /- 234 -/,
      (k!"setDoIpConfig", .set k!"doIpConfig" false) /- 237 -/,
      (k!"getEcuTaskProxyRefs", .get k!"ecuTaskProxyRefs") /- 241 -/,
      (k!"addEcuTaskProxyRef", .add k!"ecuTaskProxyRefs" false false) /- 244 -/,
      (k!"getEthSwitchPortGroupDerivation", .get k!"ethSwitchPortGroupDerivation") /- 248 -/,
      (k!"setEthSwitchPortGroupDerivation", .set k!"ethSwitchPortGroupDerivation" false) /- 251 -/,
      (k!"getFirewallRuleRefs", .get k!"firewallRuleRefs") /- 255 -/,
      (k!"addFirewallRuleRef", .add k!"firewallRuleRefs" false false) /- 258 -/,
      (k!"getPartitions", .get k!"partitions") /- 262 -/,
      (k!"addPartition", .add k!"partitions" false false) /- 265 -/,
      (k!"getPncNmRequest", .get k!"pncNmRequest") /- 269 -/,
      (k!"setPncNmRequest", .set k!"pncNmRequest" false) /- 272 -/,
      (k!"getPncPrepareSleepTimer", .get k!"pncPrepareSleepTimer") /- 276 -/,
      (k!"setPncPrepareSleepTimer", .set k!"pncPrepareSleepTimer" false) /- 279 -/,
      (k!"getPncSynchronousWakeup", .get k!"pncSynchronousWakeup") /- 283 -/,
      (k!"setPncSynchronousWakeup", .set k!"pncSynchronousWakeup" false) /- 286 -/,
      (k!"getPnResetTime", .get k!"pnResetTime") /- 290 -/,
      (k!"setPnResetTime", .set k!"pnResetTime" false) /- 293 -/,
      (k!"getSleepModeSupported", .get k!"sleepModeSupported") /- 297 -/,
      (k!"setSleepModeSupported", .set k!"sleepModeSupported" false) /- 300 -/,
      (k!"getTcpIpIcmpPropsRef", .get k!"tcpIpIcmpPropsRef") /- 304 -/,
      (k!"setTcpIpIcmpPropsRef", .set k!"tcpIpIcmpPropsRef" false) /- 307 -/,
      (k!"getTcpIpPropsRef", .get k!"tcpIpPropsRef") /- 311 -/,
      (k!"setTcpIpPropsRef", .set k!"tcpIpPropsRef" false) /- 314 -/,
      (k!"getV2xSupported", .get k!"v2xSupported") /- 318 -/,
      (k!"setV2xSupported", .set k!"v2xSupported" false) /- 321 -/,
      (k!"getWakeUpOverBusSupported", .get k!"wakeUpOverBusSupported") /- 325 -/,
      (k!"setWakeUpOverBusSupported", .set k!"wakeUpOverBusSupported" false) /- 328 -/]⟩ accTable16

def accTable18 : Bst (ClassAcc) :=
 (.node (.node (.node (.node (.node .nil
     -- M2/AUTOSARTemplates/SWComponentTemplate/Components/__init__.py:41
     k!"SymbolProps" ⟨false, some (2, [.sup 2]),
     []⟩
     .nil)
    -- M2/AUTOSARTemplates/CommonStructure/Timing/TimingClock/TimingClock.py:4
    k!"TimingClock" ⟨false, some (0, [.sup 0, .field k!"clockName" .none, .field k!"clockType" .none]),
     [(k!"getClockName", .get k!"clockName") /- 25 -/,
      (k!"setClockName", .set k!"clockName" false) /- 34 -/,
      (k!"getClockType", .get k!"clockType") /- 47 -/,
      (k!"setClockType", .set k!"clockType" false) /- 56 -/]⟩
    .nil)
   -- M2/AUTOSARTemplates/SWComponentTemplate/SwcInternalBehavior/RTEEvents.py:386
   k!"TimingEvent" ⟨false, some (2, [.sup 2, .field k!"offset" .none, .field k!"period" .none]),
     [(k!"getOffset", .get k!"offset") /- 417 -/,
      (k!"setOffset", .set k!"offset" true) /- 426 -/,
      (k!"getPeriod", .get k!"period") /- 440 -/,
      (k!"setPeriod", .set k!"period" true) /- 449 -/]⟩
   (.node .nil
    -- M2/AUTOSARTemplates/CommonStructure/FlatMap.py:354
    k!"AliasNameSet" ⟨false, some (2, [.sup 2, .field k!"aliasNames" .nil]),
     [(k!"addAliasName", .add k!"aliasNames" true false) /- 381 -/,
      (k!"getAliasNames", .get k!"aliasNames") /- 397 -/]⟩
    .nil))
  -- M2/AUTOSARTemplates/CommonStructure/StandardizationTemplate/AbstractBlueprintStructure/AtpBlueprint.py:13
  k!"AtpBlueprint" ⟨true, some (2, [.guard k!"AtpBlueprint", .sup 2, .field k!"blueprintPolicys" .nil]),
     [(k!"addBlueprintPolicy", .add k!"blueprintPolicys" true false) /- 38 -/,
      (k!"getBlueprintPolicys", .get k!"blueprintPolicys") /- 49 -/]⟩
  (.node (.node .nil
    -- M2/AUTOSARTemplates/GenericStructure/AbstractStructure.py:218
    k!"AtpPrototype" ⟨true, some (2, [.guard k!"AtpPrototype", .sup 2]),
     []⟩
    .nil)
   -- M2/AUTOSARTemplates/SystemTemplate/NetworkManagement.py:1163
   k!"CanNmCluster" ⟨false, some (2, [.sup 2, .field k!"nmBusloadReductionActive" .none, .field k!"nmCarWakeUpBitPosition" .none, .field k!"nmCarWakeUpFilterNodeId" .none, .field k!"nmCarWakeUpRxEnabled" .none, .field k!"nmCbvPosition" .none, .field k!"nmChannelActive" .none, .field k!"nmImmediateNmCycleTime" .none, .field k!"nmImmediateNmTransmissions" .none, .field k!"nmMessageTimeoutTime" .none, .field k!"nmMsgCycleTime" .none, .field k!"nmNetworkTimeout" .none, .field k!"nmNidPosition" .none, .field k!"nmRemoteSleepIndicationTime" .none, .field k!"nmRepeatMessageTime" .none, .field k!"nmUserDataLength" .none, .field k!"nmWaitBusSleepTime" .none]),
     [(k!"getNmBusloadReductionActive", .get k!"nmBusloadReductionActive") /- 1225 -/,
      (k!"setNmBusloadReductionActive", .set k!"nmBusloadReductionActive" false) /- 1228 -/,
      (k!"getNmCarWakeUpBitPosition", .get k!"nmCarWakeUpBitPosition") /- 1232 -/,
      (k!"setNmCarWakeUpBitPosition", .set k!"nmCarWakeUpBitPosition" false) /- 1235 -/,
      (k!"getNmCarWakeUpFilterNodeId", .get k!"nmCarWakeUpFilterNodeId") /- 1239 -/,
      (k!"setNmCarWakeUpFilterNodeId", .set k!"nmCarWakeUpFilterNodeId" false) /- 1242 -/,
      (k!"getNmCarWakeUpRxEnabled", .get k!"nmCarWakeUpRxEnabled") /- 1246 -/,
      (k!"setNmCarWakeUpRxEnabled", .set k!"nmCarWakeUpRxEnabled" false) /- 1249 -/,
      (k!"getNmCbvPosition", .get k!"nmCbvPosition") /- 1253 -/,
      (k!"setNmCbvPosition", .set k!"nmCbvPosition" false) /- 1256 -/,
      (k!"getNmChannelActive", .get k!"nmChannelActive") /- 1260 -/,
      (k!"setNmChannelActive", .set k!"nmChannelActive" false) /- 1263 -/,
      (k!"getNmImmediateNmCycleTime", .get k!"nmImmediateNmCycleTime") /- 1267 -/,
      (k!"setNmImmediateNmCycleTime", .set k!"nmImmediateNmCycleTime" false) /- 1270 -/,
      (k!"getNmImmediateNmTransmissions", .get k!"nmImmediateNmTransmissions") /- 1274 -/,
      (k!"setNmImmediateNmTransmissions", .set k!"nmImmediateNmTransmissions" false) /- 1277 -/,
      (k!"getNmMessageTimeoutTime", .get k!"nmMessageTimeoutTime") /- 1281 -/,
      (k!"setNmMessageTimeoutTime", .set k!"nmMessageTimeoutTime" false) /- 1284 -/,
      (k!"getNmMsgCycleTime", .get k!"nmMsgCycleTime") /- 1288 -/,
      (k!"setNmMsgCycleTime", .set k!"nmMsgCycleTime" false) /- 1291 -/,
      (k!"getNmNetworkTimeout", .get k!"nmNetworkTimeout") /- 1295 -/,
      (k!"setNmNetworkTimeout", .set k!"nmNetworkTimeout" false) /- 1298 -/,
      (k!"getNmNidPosition", .get k!"nmNidPosition") /- 1302 -/,
      (k!"setNmNidPosition", .set k!"nmNidPosition" false) /- 1305 -/,
      (k!"getNmRemoteSleepIndicationTime", .get k!"nmRemoteSleepIndicationTime") /- 1309 -/,
      (k!"setNmRemoteSleepIndicationTime", .set k!"nmRemoteSleepIndicationTime" false) /- 1312 -/,
      (k!"getNmRepeatMessageTime", .get k!"nmRepeatMessageTime") /- 1316 -/,
      (k!"setNmRepeatMessageTime", .set k!"nmRepeatMessageTime" false) /- 1319 -/,
      (k!"getNmUserDataLength", .get k!"nmUserDataLength") /- 1323 -/,
      (k!"setNmUserDataLength", .set k!"nmUserDataLength" false) /- 1326 -/,
      (k!"getNmWaitBusSleepTime", .get k!"nmWaitBusSleepTime") /- 1330 -/,
      (k!"setNmWaitBusSleepTime", .set k!"nmWaitBusSleepTime" false) /- 1333 -/]⟩
   (.node .nil
    -- M2/AUTOSARTemplates/SystemTemplate/TransportProtocols.py:43
    k!"CanTpAddress" ⟨false, some (2, [.sup 2, .field k!"tpAddress" .none, .field k!"tpAddressExtensionValue" .none]),
     [(k!"getTpAddress", .get k!"tpAddress") /- 63 -/,
      (k!"setTpAddress", .set k!"tpAddress" true) /- 66 -/,
      (k!"getTpAddressExtensionValue", .get k!"tpAddressExtensionValue") /- 71 -/,
      (k!"setTpAddressExtensionValue", .set k!"tpAddressExtensionValue" true) /- 74 -/]⟩
    .nil)))
 -- M2/AUTOSARTemplates/SystemTemplate/TransportProtocols.py:80
 k!"CanTpChannel" ⟨false, some (2, [.sup 2, .field k!"channelId" .none, .field k!"channelMode" .none]),
     [(k!"getChannelId", .get k!"channelId") /- 99 -/,
      (k!"setChannelId", .set k!"channelId" true) /- 102 -/,
      (k!"getChannelMode", .get k!"channelMode") /- 107 -/,
      (k!"setChannelMode", .set k!"channelMode" true) /- 110 -/]⟩
 (.node (.node (.node .nil
    -- M2/MSR/Documentation/Chapters.py:134
    k!"ChapterModel" ⟨false, some (0, [.sup 0, .field k!"chapter" .none, .field k!"chapterContent" .none, .field k!"topic1" .none]),
     [(k!"setChapterContent", .set k!"chapterContent" true) /- 171 -/,
      (k!"getChapterContent", .get k!"chapterContent") /- 184 -/,
      (k!"setTopic1", .set k!"topic1" true) /- 193 -/,
      (k!"getTopic1", .get k!"topic1") /- 206 -/,
      (k!"setChapter", .set k!"chapter" true) /- 215 -/,
      (k!"getChapter", .get k!"chapter") /- 228 -/]⟩
    .nil)
   -- M2/MSR/AsamHdo/ComputationMethod.py:12
   k!"CompuContent" ⟨true, some (0, [.guard k!"CompuContent", .sup 0]),
     []⟩
   (.node .nil
    -- M2/AUTOSARTemplates/SystemTemplate/Fibex/Fibex4Ethernet/EthernetTopology.py:431
    k!"CouplingPort" ⟨false, some (2, [.sup 2, .field k!"connectionNegotiationBehavior" .none, .field k!"couplingPortDetails" .none, .field k!"couplingPortRole" .none, .field k!"defaultVlanRef" .none, .field k!"macAddressVlanAssignments" .nil, .field k!"macLayerType" .none, .field k!"macMulticastAddressRefs" .nil, .field k!"macSecProps" .nil, .field k!"physicalLayerType" .none, .field k!"plcaProps" .none, .field k!"pncMappingRefs" .nil, .field k!"receiveActivity" .none, .field k!"vlanMemberships" .nil, .field k!"wakeupSleepOnDatalineConfigRef" .none]),
     [(k!"getConnectionNegotiationBehavior", .get k!"connectionNegotiationBehavior") /- 487 -/,
      (k!"setConnectionNegotiationBehavior", .set k!"connectionNegotiationBehavior" true) /- 490 -/,
      (k!"getCouplingPortDetails", .get k!"couplingPortDetails") /- 495 -/,
      (k!"setCouplingPortDetails", .set k!"couplingPortDetails" true) /- 498 -/,
      (k!"getCouplingPortRole", .get k!"couplingPortRole") /- 503 -/,
      (k!"setCouplingPortRole", .set k!"couplingPortRole" true) /- 506 -/,
      (k!"getDefaultVlanRef", .get k!"defaultVlanRef") /- 511 -/,
      (k!"setDefaultVlanRef", .set k!"defaultVlanRef" true) /- 514 -/,
      (k!"getMacAddressVlanAssignments", .get k!"macAddressVlanAssignments") /- 519 -/,
      (k!"setMacAddressVlanAssignments", .set k!"macAddressVlanAssignments" true) /- 522 -/,
      (k!"getMacLayerType", .get k!"macLayerType") /- 527 -/,
      (k!"setMacLayerType", .set k!"macLayerType" true) /- 530 -/,
      (k!"getMacMulticastAddressRefs", .get k!"macMulticastAddressRefs") /- 535 -/,
      (k!"setMacMulticastAddressRefs", .set k!"macMulticastAddressRefs" true) /- 538 -/,
      (k!"getMacSecProps", .get k!"macSecProps") /- 543 -/,
      (k!"setMacSecProps", .set k!"macSecProps" true) /- 546 -/,
      (k!"getPhysicalLayerType", .get k!"physicalLayerType") /- 551 -/,
      (k!"setPhysicalLayerType", .set k!"physicalLayerType" true) /- 554 -/,
      (k!"getPlcaProps", .get k!"plcaProps") /- 559 -/,
      (k!"setPlcaProps", .set k!"plcaProps" true) /- 562 -/,
      (k!"getPncMappingRefs", .get k!"pncMappingRefs") /- 567 -/,
      (k!"setPncMappingRefs", .set k!"pncMappingRefs" true) /- 570 -/,
      (k!"getReceiveActivity", .get k!"receiveActivity") /- 575 -/,
      (k!"setReceiveActivity", .set k!"receiveActivity" true) /- 578 -/,
      (k!"getVlanMemberships", .get k!"vlanMemberships") /- 583 -/,
      (k!"addVlanMembership", .add k!"vlanMemberships" true false) /- 586 -/,
      (k!"getWakeupSleepOnDatalineConfigRef", .get k!"wakeupSleepOnDatalineConfigRef") /- 591 -/,
      (k!"setWakeupSleepOnDatalineConfigRef", .set k!"wakeupSleepOnDatalineConfigRef" true) /- 594 -/]⟩
    .nil))
  -- M2/AUTOSARTemplates/SystemTemplate/Fibex/FibexCore/CoreTopology.py:33
  k!"CycleCounter" ⟨false, some (0, [.sup 0, .field k!"CycleCounter" .none]),
     [(k!"getCycleCounter", .get k!"CycleCounter") /- 49 -/,
      (k!"setCycleCounter", .set k!"CycleCounter" true) /- 52 -/]⟩
  (.node (.node .nil
    -- M2/AUTOSARTemplates/SystemTemplate/Fibex/FibexCore/Timing.py:101
    k!"CyclicTiming" ⟨false, some (0, [.sup 0, .field k!"timeOffset" .none, .field k!"timePeriod" .none]),
     [(k!"getTimeOffset", .get k!"timeOffset") /- 119 -/,
      (k!"setTimeOffset", .set k!"timeOffset" false) /- 122 -/,
      (k!"getTimePeriod", .get k!"timePeriod") /- 126 -/,
      (k!"setTimePeriod", .set k!"timePeriod" false) /- 129 -/]⟩
    .nil)
   -- M2/AUTOSARTemplates/CommonStructure/ServiceNeeds.py:2069
   k!"DltUserNeeds" ⟨false, some (2, [.sup 2]),
     []⟩
   (.node .nil
    -- M2/AUTOSARTemplates/CommonStructure/ServiceNeeds.py:2766
    k!"DoIpGidNeeds" ⟨false, some (2, [.sup 2]),
     []⟩
    .nil))))

def accTable19 : Bst (ClassAcc) :=
 (.node (.node (.node (.node .nil
    -- M2/MSR/Documentation/TextModel/InlineTextElements.py:204
    k!"EmphasisText" ⟨false, some (0, [.sup 0, .field k!"value" .none, .field k!"color" .none, .field k!"font" .none, .field k!"sub" .none, .field k!"sup" .none, .field k!"tt" .none, .field k!"type" .none]),
     [(k!"getValue", .get k!"value") /- 253 -/,
      (k!"setValue", .set k!"value" true) /- 262 -/,
      (k!"getColor", .get k!"color") /- 273 -/,
      (k!"setColor", .set k!"color" true) /- 282 -/,
      (k!"getFont", .get k!"font") /- 293 -/,
      (k!"setFont", .set k!"font" true) /- 302 -/,
      (k!"getSub", .get k!"sub") /- 313 -/,
      (k!"setSub", .set k!"sub" true) /- 322 -/,
      (k!"getSup", .get k!"sup") /- 333 -/,
      (k!"setSup", .set k!"sup" true) /- 342 -/,
      (k!"getTt", .get k!"tt") /- 353 -/,
      (k!"setTt", .set k!"tt" true) /- 362 -/,
      (k!"getType", .get k!"type") /- 373 -/,
      (k!"setType", .set k!"type" true) /- 382 -/]⟩
    .nil)
   -- M2/AUTOSARTemplates/SystemTemplate/Fibex/Fibex4Ethernet/ServiceInstances.py:736
   k!"EventHandler" ⟨false, some (2, [.sup 2, .field k!"applicationEndpointRef" .none, .field k!"consumedEventGroupRefs" .nil, .field k!"multicastThreshold" .none, .field k!"routingGroupRefs" .nil, .field k!"sdServerConfig" .none]),
     [(k!"getApplicationEndpointRef", .get k!"applicationEndpointRef") /- 765 -/,
      (k!"setApplicationEndpointRef", .set k!"applicationEndpointRef" true) /- 768 -/,
      (k!"getConsumedEventGroupRefs", .get k!"consumedEventGroupRefs") /- 773 -/,
      (k!"addConsumedEventGroupRef", .add k!"consumedEventGroupRefs" true false) /- 776 -/,
      (k!"getMulticastThreshold", .get k!"multicastThreshold") /- 781 -/,
      (k!"setMulticastThreshold", .set k!"multicastThreshold" true) /- 784 -/,
      (k!"getRoutingGroupRefs", .get k!"routingGroupRefs") /- 789 -/,
      (k!"addRoutingGroupRef", .add k!"routingGroupRefs" true false) /- 792 -/,
      (k!"getSdServerConfig", .get k!"sdServerConfig") /- 797 -/,
      (k!"setSdServerConfig", .set k!"sdServerConfig" true) /- 800 -/]⟩
   (.node .nil
    -- M2/AUTOSARTemplates/SystemTemplate/Fibex/FibexCore/CoreCommunication.py:20
    k!"FibexElement" ⟨true, some (2, [.guard k!"FibexElement", .sup 2]),
     []⟩
    .nil))
  -- M2/AUTOSARTemplates/AdaptivePlatform/PlatformModuleDeployment/Firewall/FirewallRule.py:6
  k!"FirewallRule" ⟨false, some (0, [.sup 0, .field k!"destRefs" .nil, .field k!"srcRefs" .nil]),
     [(k!"addDestRef", .add k!"destRefs" false false) /- 27 -/,
      (k!"getDestRefs", .get k!"destRefs") /- 40 -/,
      (k!"addSrcRef", .add k!"srcRefs" false false) /- 49 -/,
      (k!"getSrcRefs", .get k!"srcRefs") /- 62 -/]⟩
  (.node (.node .nil
    -- M2/AUTOSARTemplates/SystemTemplate/Fibex/Fibex4Flexray/FlexrayCommunication.py:8
    k!"FlexrayFrame" ⟨false, some (2, [.sup 2]),
     []⟩
    .nil)
   -- M2/AUTOSARTemplates/SystemTemplate/NetworkManagement.py:750
   k!"FlexrayNmEcu" ⟨false, some (0, [.sup 0]),
     []⟩
   (.node .nil
    -- M2/AUTOSARTemplates/SystemTemplate/Fibex/Fibex4Multiplatform.py:10
    k!"FrameMapping" ⟨false, some (0, [.sup 0, .field k!"introduction" .none, .field k!"sourceFrameRef" .none, .field k!"targetFrameRef" .none]),
     [(k!"getIntroduction", .get k!"introduction") /- 31 -/,
      (k!"setIntroduction", .set k!"introduction" false) /- 34 -/,
      (k!"getSourceFrameRef", .get k!"sourceFrameRef") /- 38 -/,
      (k!"setSourceFrameRef", .set k!"sourceFrameRef" false) /- 41 -/,
      (k!"getTargetFrameRef", .get k!"targetFrameRef") /- 45 -/,
      (k!"setTargetFrameRef", .set k!"targetFrameRef" false) /- 48 -/]⟩
    .nil)))
 -- M2/AUTOSARTemplates/SystemTemplate/Fibex/FibexCore/CoreCommunication.py:219
 k!"ISignalGroup" ⟨false, some (2, [.sup 2, .field k!"comBasedSignalGroupTransformationRef" .none, .field k!"iSignalRefs" .nil, .field k!"systemSignalGroupRef" .none, .field k!"transformationISignalProps" .nil]),
     [(k!"getComBasedSignalGroupTransformationRef", .get k!"comBasedSignalGroupTransformationRef") /- 253 -/,
      (k!"setComBasedSignalGroupTransformationRef", .set k!"comBasedSignalGroupTransformationRef" true) /- 259 -/,
      (k!"getISignalRefs", .get k!"iSignalRefs") /- 268 -/,
      (k!"addISignalRef", .add k!"iSignalRefs" false false) /- 274 -/,
      (k!"getSystemSignalGroupRef", .get k!"systemSignalGroupRef") /- 281 -/,
      (k!"setSystemSignalGroupRef", .set k!"systemSignalGroupRef" true) /- 287 -/,
      (k!"getTransformationISignalProps", .get k!"transformationISignalProps") /- 296 -/,
      (k!"addTransformationISignalProps", .add k!"transformationISignalProps" false false) /- 302 -/]⟩
 (.node (.node (.node .nil
    -- M2/AUTOSARTemplates/SystemTemplate/Fibex/FibexCore/CoreCommunication.py:1226
    k!"ISignalProps" ⟨false, some (0, [.sup 0, .field k!"handleOutOfRange" .none]),
     [(k!"getHandleOutOfRange", .get k!"handleOutOfRange") /- 1248 -/,
      (k!"setHandleOutOfRange", .set k!"handleOutOfRange" true) /- 1254 -/]⟩
    .nil)
   -- M2/AUTOSARTemplates/SWComponentTemplate/RPTScenario.py:14
   k!"IdentCaption" ⟨true, some (2, [.guard k!"IdentCaption", .sup 2]),
     []⟩
   (.node .nil
    -- M2/AUTOSARTemplates/GenericStructure/GeneralTemplateClasses/Identifiable.py:345
    k!"Identifiable" ⟨true, some (2, [.guard k!"Identifiable", .base k!"MultilanguageReferrable" 2, .field k!"elements" .nil, .field k!"element_mappings" .other, .field k!"annotations" .nil, .field k!"adminData" .none, .field k!"category" .none, .field k!"introduction" .none, .field k!"desc" .none, .field k!"variationPoint" .none]),
     [(k!"getTotalElement", .other) /- 394 -/,
      (k!"removeElement", .other) /- 403 -/,
      (k!"getElements", .get k!"elements") /- 421 -/,
      (k!"addElement", .other) /- 430 -/,
      (k!"getElement", .other) /- 447 -/,
      (k!"IsElementExists", .other) /- 467 -/,
      (k!"getAdminData", .get k!"adminData") /- 484 -/,
      (k!"setAdminData", .set k!"adminData" true) /- 493 -/,
      (k!"removeAdminData", .other) /- 508 -/,
      (k!"getDesc", .get k!"desc") /- 514 -/,
      (k!"setDesc", .set k!"desc" false) /- 523 -/,
      (k!"getVariationPoint", .get k!"variationPoint") /- 536 -/,
      (k!"setVariationPoint", .set k!"variationPoint" true) /- 542 -/,
      (k!"getCategory", .get k!"category") /- 551 -/,
      (k!"setCategory", .other) /- 560 -/,
      (k!"getIntroduction", .get k!"introduction") /- 577 -/,
      (k!"setIntroduction", .set k!"introduction" false) /- 586 -/,
      (k!"addAnnotation", .add k!"annotations" false false) /- 599 -/,
      (k!"getAnnotations", .get k!"annotations") /- 612 -/]⟩
    .nil))
  -- M2/MSR/Documentation/TextModel/BlockElements/ListElements.py:118
  k!"IndentSample" ⟨false, some (0, [.sup 0, .field k!"itemLabelPos" .none, .field k!"l2s" .nil]),
     [(k!"getItemLabelPos", .get k!"itemLabelPos") /- 142 -/,
      (k!"setItemLabelPos", .set k!"itemLabelPos" true) /- 151 -/,
      (k!"addL2", .add k!"l2s" true false) /- 162 -/,
      (k!"getL2s", .get k!"l2s") /- 173 -/]⟩
  (.node (.node .nil
    -- M2/AUTOSARTemplates/SWComponentTemplate/PortInterface/__init__.py:234
    k!"MetaDataItem" ⟨false, some (0, [.sup 0, .field k!"length" .none, .field k!"metaDataItemType" .none]),
     [(k!"getLength", .get k!"length") /- 248 -/,
      (k!"setLength", .set k!"length" false) /- 251 -/,
      (k!"getMetaDataItemType", .get k!"metaDataItemType") /- 255 -/,
      (k!"setMetaDataItemType", .set k!"metaDataItemType" false) /- 258 -/]⟩
    .nil)
   -- M2/MSR/AsamHdo/AdminData.py:8
   k!"Modification" ⟨false, some (0, [.sup 0, .field k!"change" .none, .field k!"reason" .none]),
     [(k!"getChange", .get k!"change") /- 28 -/,
      (k!"setChange", .set k!"change" true) /- 31 -/,
      (k!"getReason", .get k!"reason") /- 36 -/,
      (k!"setReason", .set k!"reason" true) /- 39 -/]⟩
   (.node .nil
    -- M2/AUTOSARTemplates/GenericStructure/GeneralTemplateClasses/PrimitiveTypes.py:1279
    k!"MonotonyEnum" ⟨false, some (0, [.sup 1]),
     []⟩
    .nil))))

-- M2/AUTOSARTemplates/SystemTemplate/TransportProtocols.py:629
def accTable20 : Bst (ClassAcc) :=
 .node accTable18 k!"DoIpTpConfig" ⟨false, some (2, [.sup 2, .field k!"doIpLogicAddresses" .nil, .field k!"tpConnections" .nil]),
     [(k!"getDoIpLogicAddresses", .get k!"doIpLogicAddresses") /- 649 -/,
      (k!"createDoIpLogicAddress", .other) /- 652 -/,
      (k!"getTpConnections", .get k!"tpConnections") /- 659 -/,
      (k!"addTpConnection", .add k!"tpConnections" true false) /- 662 -/]⟩ accTable19

-- M2/MSR/CalibrationData/CalibrationValue.py:30
def accTable21 : Bst (ClassAcc) :=
 .node accTable17 k!"SwValueCont" ⟨false, some (0, [.sup 0, .field k!"swArraysize" .none, .field k!"swValuesPhys" .none, .field k!"unitRef" .none, .field k!"unitDisplayName" .none]),
     [(k!"getSwArraysize", .get k!"swArraysize") /- 55 -/,
      (k!"setSwArraysize", .set k!"swArraysize" false) /- 58 -/,
      (k!"getSwValuesPhys", .get k!"swValuesPhys") /- 62 -/,
      (k!"setSwValuesPhys", .set k!"swValuesPhys" false) /- 65 -/,
      (k!"getUnitRef", .get k!"unitRef") /- 69 -/,
      (k!"setUnitRef", .set k!"unitRef" false) /- 72 -/,
      (k!"getUnitDisplayName", .get k!"unitDisplayName") /- 76 -/,
      (k!"setUnitDisplayName", .set k!"unitDisplayName" false) /- 79 -/]⟩ accTable20

def accTable22 : Bst (ClassAcc) :=
 (.node (.node (.node (.node (.node .nil
     -- M2/AUTOSARTemplates/CommonStructure/ServiceNeeds.py:255
     k!"NvBlockNeeds" ⟨false, some (2, [.sup 2, .field k!"calcRamBlockCrc" .none, .field k!"checkStaticBlockId" .none, .field k!"cyclicWritingPeriod" .none, .field k!"nDataSets" .none, .field k!"nRomBlocks" .none, .field k!"ramBlockStatusControl" .none, .field k!"readonly" .none, .field k!"reliability" .none, .field k!"resistantToChangedSw" .none, .field k!"restoreAtStart" .none, .field k!"selectBlockForFirstInitAll" .none, .field k!"storeAtShutdown" .none, .field k!"storeCyclic" .none, .field k!"storeEmergency" .none, .field k!"storeImmediate" .none, .field k!"storeOnChange" .none, .field k!"useAutoValidationAtShutDown" .none, .field k!"useCRCCompMechanism" .none, .field k!"writeOnlyOnce" .none, .field k!"writeVerification" .none, .field k!"writingFrequency" .none, .field k!"writingPriority" .none]),
     [(k!"getCalcRamBlockCrc", .get k!"calcRamBlockCrc") /- 364 -/,
      (k!"setCalcRamBlockCrc", .set k!"calcRamBlockCrc" false) /- 367 -/,
      (k!"getCheckStaticBlockId", .get k!"checkStaticBlockId") /- 371 -/,
      (k!"setCheckStaticBlockId", .set k!"checkStaticBlockId" false) /- 374 -/,
      (k!"getCyclicWritingPeriod", .get k!"cyclicWritingPeriod") /- 378 -/,
      (k!"setCyclicWritingPeriod", .set k!"cyclicWritingPeriod" false) /- 381 -/,
      (k!"getNDataSets", .get k!"nDataSets") /- 385 -/,
      (k!"setNDataSets", .set k!"nDataSets" false) /- 388 -/,
      (k!"getNRomBlocks", .get k!"nRomBlocks") /- 392 -/,
      (k!"setNRomBlocks", .set k!"nRomBlocks" false) /- 395 -/,
      (k!"getRamBlockStatusControl", .get k!"ramBlockStatusControl") /- 399 -/,
      (k!"setRamBlockStatusControl", .set k!"ramBlockStatusControl" false) /- 402 -/,
      (k!"getReadonly", .get k!"readonly") /- 406 -/,
      (k!"setReadonly", .set k!"readonly" false) /- 409 -/,
      (k!"getReliability", .get k!"reliability") /- 413 -/,
      (k!"setReliability", .set k!"reliability" false) /- 416 -/,
      (k!"getResistantToChangedSw", .get k!"resistantToChangedSw") /- 420 -/,
      (k!"setResistantToChangedSw", .set k!"resistantToChangedSw" false) /- 423 -/,
      (k!"getRestoreAtStart", .get k!"restoreAtStart") /- 427 -/,
      (k!"setRestoreAtStart", .set k!"restoreAtStart" false) /- 430 -/,
      (k!"getSelectBlockForFirstInitAll", .get k!"selectBlockForFirstInitAll") /- 434 -/,
      (k!"setSelectBlockForFirstInitAll", .set k!"selectBlockForFirstInitAll" false) /- 437 -/,
      (k!"getStoreAtShutdown", .get k!"storeAtShutdown") /- 441 -/,
      (k!"setStoreAtShutdown", .set k!"storeAtShutdown" false) /- 444 -/,
      (k!"getStoreCyclic", .get k!"storeCyclic") /- 448 -/,
      (k!"setStoreCyclic", .set k!"storeCyclic" false) /- 451 -/,
      (k!"getStoreEmergency", .get k!"storeEmergency") /- 455 -/,
      (k!"setStoreEmergency", .set k!"storeEmergency" false) /- 458 -/,
      (k!"getStoreImmediate", .get k!"storeImmediate") /- 462 -/,
      (k!"setStoreImmediate", .set k!"storeImmediate" false) /- 465 -/,
      (k!"getStoreOnChange", .get k!"storeOnChange") /- 469 -/,
      (k!"setStoreOnChange", .set k!"storeOnChange" false) /- 472 -/,
      (k!"getUseAutoValidationAtShutDown", .get k!"useAutoValidationAtShutDown") /- 476 -/,
      (k!"setUseAutoValidationAtShutDown", .set k!"useAutoValidationAtShutDown" false) /- 479 -/,
      (k!"getUseCRCCompMechanism", .get k!"useCRCCompMechanism") /- 483 -/,
      (k!"setUseCRCCompMechanism", .set k!"useCRCCompMechanism" false) /- 486 -/,
      (k!"getWriteOnlyOnce", .get k!"writeOnlyOnce") /- 490 -/,
      (k!"setWriteOnlyOnce", .set k!"writeOnlyOnce" false) /- 493 -/,
      (k!"getWriteVerification", .get k!"writeVerification") /- 497 -/,
      (k!"setWriteVerification", .set k!"writeVerification" false) /- 500 -/,
      (k!"getWritingFrequency", .get k!"writingFrequency") /- 504 -/,
      (k!"setWritingFrequency", .set k!"writingFrequency" false) /- 507 -/,
      (k!"getWritingPriority", .get k!"writingPriority") /- 511 -/,
      (k!"setWritingPriority", .set k!"writingPriority" false) /- 514 -/]⟩
     .nil)
    -- M2/AUTOSARTemplates/SWComponentTemplate/Communication.py:41
    k!"PPortComSpec" ⟨true, some (0, [.guard k!"PPortComSpec", .sup 0]),
     []⟩
    .nil)
   -- M2/MSR/Documentation/TextModel/BlockElements/PaginationAndView.py:20
   k!"Paginateable" ⟨true, some (0, [.guard k!"Paginateable", .sup 0, .field k!"chapterBreak" .none, .field k!"keepWithPrevious" .none]),
     [(k!"getBreak", .get k!"chapterBreak") /- 41 -/,
      (k!"setBreak", .set k!"chapterBreak" true) /- 44 -/,
      (k!"getKeepWithPrevious", .get k!"keepWithPrevious") /- 49 -/,
      (k!"setKeepWithPrevious", .set k!"keepWithPrevious" true) /- 52 -/]⟩
   (.node .nil
    -- M2/AUTOSARTemplates/SWComponentTemplate/Communication.py:58
    k!"RPortComSpec" ⟨true, some (0, [.guard k!"RPortComSpec", .sup 0]),
     []⟩
    .nil))
  -- M2/AUTOSARTemplates/CommonStructure/MeasurementCalibrationSupport/RptSupport/__init__.py:781
  k!"RptComponent" ⟨false, some (2, [.sup 2, .field k!"mcDataAssignments" .nil, .field k!"rpImplPolicy" .none, .field k!"rptExecutableEntities" .nil]),
     [(k!"addMcDataAssignment", .add k!"mcDataAssignments" true false) /- 816 -/,
      (k!"getMcDataAssignments", .get k!"mcDataAssignments") /- 831 -/,
      (k!"getRpImplPolicy", .get k!"rpImplPolicy") /- 840 -/,
      (k!"setRpImplPolicy", .set k!"rpImplPolicy" true) /- 849 -/,
      (k!"createRptExecutableEntity", .other) /- 864 -/,
      (k!"getRptExecutableEntities", .get k!"rptExecutableEntities") /- 882 -/]⟩
  (.node (.node .nil
    -- M2/AUTOSARTemplates/CommonStructure/ServiceNeeds.py:3925
    k!"RuntimeError" ⟨false, some (2, [.sup 2]),
     []⟩
    .nil)
   -- M2/AUTOSARTemplates/CommonStructure/ServiceNeeds.py:147
   k!"ServiceNeeds" ⟨true, some (2, [.guard k!"ServiceNeeds", .sup 2]),
     []⟩
   (.node .nil
    -- M2/MSR/DataDictionary/AuxillaryObjects.py:80
    k!"SwAddrMethod" ⟨false, some (2, [.sup 2, .field k!"memoryAllocationKeywordPolicy" .none, .field k!"options" .nil, .field k!"sectionInitializationPolicy" .none, .field k!"sectionType" .none]),
     [(k!"getMemoryAllocationKeywordPolicy", .get k!"memoryAllocationKeywordPolicy") /- 114 -/,
      (k!"setMemoryAllocationKeywordPolicy", .set k!"memoryAllocationKeywordPolicy" true) /- 120 -/,
      (k!"getOptions", .get k!"options") /- 128 -/,
      (k!"addOption", .add k!"options" false false) /- 134 -/,
      (k!"getSectionInitializationPolicy", .get k!"sectionInitializationPolicy") /- 141 -/,
      (k!"setSectionInitializationPolicy", .set k!"sectionInitializationPolicy" true) /- 147 -/,
      (k!"getSectionType", .get k!"sectionType") /- 155 -/,
      (k!"setSectionType", .set k!"sectionType" true) /- 161 -/]⟩
    .nil)))
 -- M2/MSR/DataDictionary/CalibrationParameter.py:98
 k!"SwCalprmAxis" ⟨false, some (0, [.sup 0, .field k!"category" .none, .field k!"displayFormat" .none, .field k!"swAxisIndex" .none, .field k!"swCalibrationAccess" .none, .field k!"swCalprmAxisTypeProps" .none]),
     [(k!"getCategory", .get k!"category") /- 138 -/,
      (k!"setCategory", .set k!"category" true) /- 144 -/,
      (k!"getDisplayFormat", .get k!"displayFormat") /- 152 -/,
      (k!"setDisplayFormat", .set k!"displayFormat" true) /- 158 -/,
      (k!"getSwAxisIndex", .get k!"swAxisIndex") /- 166 -/,
      (k!"setSwAxisIndex", .set k!"swAxisIndex" true) /- 172 -/,
      (k!"getSwCalibrationAccess", .get k!"swCalibrationAccess") /- 180 -/,
      (k!"setSwCalibrationAccess", .set k!"swCalibrationAccess" true) /- 186 -/,
      (k!"getSwCalprmAxisTypeProps", .get k!"swCalprmAxisTypeProps") /- 194 -/,
      (k!"setSwCalprmAxisTypeProps", .set k!"swCalprmAxisTypeProps" true) /- 200 -/]⟩
 (.node (.node (.node .nil
    -- M2/MSR/DataDictionary/ServiceProcessTask.py:9
    k!"SwServiceArg" ⟨false, some (2, [.sup 2, .field k!"direction" .none, .field k!"swArraysize" .none, .field k!"swDataDefProps" .none]),
     [(k!"getDirection", .get k!"direction") /- 38 -/,
      (k!"setDirection", .set k!"direction" true) /- 47 -/,
      (k!"getSwArraysize", .get k!"swArraysize") /- 61 -/,
      (k!"setSwArraysize", .set k!"swArraysize" true) /- 70 -/,
      (k!"getSwDataDefProps", .get k!"swDataDefProps") /- 84 -/,
      (k!"setSwDataDefProps", .set k!"swDataDefProps" true) /- 93 -/]⟩
    .nil)
   -- M2/AUTOSARTemplates/GenericStructure/GeneralTemplateClasses/PrimitiveTypes.py:1403
   k!"SymbolString" ⟨false, some (0, [.sup 0]),
     []⟩
   (.node .nil
    -- M2/AUTOSARTemplates/SystemTemplate/Fibex/FibexCore/CoreCommunication.py:1595
    k!"SystemSignal" ⟨false, some (2, [.sup 2, .field k!"dynamicLength" .none, .field k!"physicalProps" .none]),
     [(k!"getDynamicLength", .get k!"dynamicLength") /- 1615 -/,
      (k!"setDynamicLength", .set k!"dynamicLength" false) /- 1618 -/,
      (k!"getPhysicalProps", .get k!"physicalProps") /- 1622 -/,
      (k!"setPhysicalProps", .set k!"physicalProps" false) /- 1625 -/]⟩
    .nil))
  -- M2/AUTOSARTemplates/SystemTemplate/Fibex/Fibex4Ethernet/ServiceInstances.py:66
  k!"TcpUdpConfig" ⟨true, some (0, [.guard k!"TcpUdpConfig", .sup 0]),
     []⟩
  (.node (.node .nil
    -- M2/MSR/Documentation/Chapters.py:587
    k!"TopicContent" ⟨false, some (0, [.sup 0, .field k!"blockLevelContent" .none]),
     [(k!"setBlockLevelContent", .set k!"blockLevelContent" true) /- 613 -/,
      (k!"getBlockLevelContent", .get k!"blockLevelContent") /- 626 -/]⟩
    .nil)
   -- M2/AUTOSARTemplates/SystemTemplate/TransportProtocols.py:130
   k!"TpConnection" ⟨true, some (0, [.guard k!"TpConnection", .sup 0, .field k!"ident" .none]),
     [(k!"getIdent", .get k!"ident") /- 150 -/,
      (k!"createTpConnectionIdent", .other) /- 153 -/]⟩
   (.node .nil
    -- M2/AUTOSARTemplates/SystemTemplate/NetworkManagement.py:1403
    k!"UdpNmCluster" ⟨false, some (2, [.sup 2, .field k!"nmCbvPosition" .none, .field k!"nmChannelActive" .none, .field k!"nmImmediateNmCycleTime" .none, .field k!"nmImmediateNmTransmissions" .none, .field k!"nmMessageTimeoutTime" .none, .field k!"nmMsgCycleTime" .none, .field k!"nmNetworkTimeout" .none, .field k!"nmNidPosition" .none, .field k!"nmRemoteSleepIndicationTime" .none, .field k!"nmRepeatMessageTime" .none, .field k!"nmWaitBusSleepTime" .none, .field k!"vlanRef" .none]),
     [(k!"getNmCbvPosition", .get k!"nmCbvPosition") /- 1453 -/,
      (k!"setNmCbvPosition", .set k!"nmCbvPosition" true) /- 1456 -/,
      (k!"getNmChannelActive", .get k!"nmChannelActive") /- 1461 -/,
      (k!"setNmChannelActive", .set k!"nmChannelActive" true) /- 1464 -/,
      (k!"getNmImmediateNmCycleTime", .get k!"nmImmediateNmCycleTime") /- 1469 -/,
      (k!"setNmImmediateNmCycleTime", .set k!"nmImmediateNmCycleTime" true) /- 1472 -/,
      (k!"getNmImmediateNmTransmissions", .get k!"nmImmediateNmTransmissions") /- 1477 -/,
      (k!"setNmImmediateNmTransmissions", .set k!"nmImmediateNmTransmissions" true) /- 1480 -/,
      (k!"getNmMessageTimeoutTime", .get k!"nmMessageTimeoutTime") /- 1485 -/,
      (k!"setNmMessageTimeoutTime", .set k!"nmMessageTimeoutTime" true) /- 1488 -/,
      (k!"getNmMsgCycleTime", .get k!"nmMsgCycleTime") /- 1493 -/,
      (k!"setNmMsgCycleTime", .set k!"nmMsgCycleTime" true) /- 1496 -/,
      (k!"getNmNetworkTimeout", .get k!"nmNetworkTimeout") /- 1501 -/,
      (k!"setNmNetworkTimeout", .set k!"nmNetworkTimeout" true) /- 1504 -/,
      (k!"getNmNidPosition", .get k!"nmNidPosition") /- 1509 -/,
      (k!"setNmNidPosition", .set k!"nmNidPosition" true) /- 1512 -/,
      (k!"getNmRemoteSleepIndicationTime", .get k!"nmRemoteSleepIndicationTime") /- 1517 -/,
      (k!"setNmRemoteSleepIndicationTime", .set k!"nmRemoteSleepIndicationTime" true) /- 1520 -/,
      (k!"getNmRepeatMessageTime", .get k!"nmRepeatMessageTime") /- 1525 -/,
      (k!"setNmRepeatMessageTime", .set k!"nmRepeatMessageTime" true) /- 1528 -/,
      (k!"getNmWaitBusSleepTime", .get k!"nmWaitBusSleepTime") /- 1533 -/,
      (k!"setNmWaitBusSleepTime", .set k!"nmWaitBusSleepTime" true) /- 1536 -/,
      (k!"getVlanRef", .get k!"vlanRef") /- 1541 -/,
      (k!"setVlanRef", .set k!"vlanRef" true) /- 1544 -/]⟩
    .nil))))

def accTable23 : Bst (ClassAcc) :=
 (.node (.node (.node (.node .nil
    -- M2/AUTOSARTemplates/CommonStructure/InternalBehavior.py:492
    k!"AbstractEvent" ⟨true, some (2, [.guard k!"AbstractEvent", .sup 2, .field k!"activationReasonRepresentationRef" .none]),
     [(k!"getActivationReasonRepresentationRef", .get k!"activationReasonRepresentationRef") /- 513 -/,
      (k!"setActivationReasonRepresentationRef", .set k!"activationReasonRepresentationRef" false) /- 519 -/]⟩
    .nil)
   -- M2/AUTOSARTemplates/CommonStructure/Timing/TimingConstraint/AgeConstraint.py:17
   k!"AgeConstraint" ⟨false, some (2, [.sup 2, .field k!"age" .none]),
     [(k!"getAge", .get k!"age") /- 42 -/,
      (k!"setAge", .set k!"age" false) /- 51 -/]⟩
   (.node .nil
    -- M2/AUTOSARTemplates/GenericStructure/GeneralTemplateClasses/PrimitiveTypes.py:371
    k!"AlignmentType" ⟨false, some (0, [.sup 0]),
     []⟩
    .nil))
  -- M2/AUTOSARTemplates/GenericStructure/AbstractStructure.py:131
  k!"AtpClassifier" ⟨true, some (2, [.guard k!"AtpClassifier", .sup 2]),
     []⟩
  (.node (.node .nil
    -- M2/AUTOSARTemplates/GenericStructure/RolesAndRights/AtpDefinition.py:10
    k!"AtpDefinition" ⟨true, some (2, [.guard k!"AtpDefinition", .sup 2]),
     []⟩
    .nil)
   -- M2/MSR/DataDictionary/RecordLayout.py:7
   k!"AxisIndexType" ⟨false, none,
     []⟩
   (.node .nil
    -- M2/AUTOSARTemplates/BswModuleTemplate/BswBehavior/__init__.py:1797
    k!"BswApiOptions" ⟨true, some (0, [.guard k!"BswApiOptions", .sup 0, .field k!"enableTakeAddress" .none]),
     [(k!"getEnableTakeAddress", .get k!"enableTakeAddress") /- 1821 -/,
      (k!"setEnableTakeAddress", .set k!"enableTakeAddress" true) /- 1830 -/]⟩
    .nil)))
 -- M2/AUTOSARTemplates/GenericStructure/GeneralTemplateClasses/PrimitiveTypes.py:1250
 k!"ByteOrderEnum" ⟨false, some (0, [.sup 1]),
     []⟩
 (.node (.node (.node .nil
    -- M2/AUTOSARTemplates/SWComponentTemplate/Communication.py:605
    k!"ClientComSpec" ⟨false, some (0, [.sup 0, .field k!"endToEndCallResponseTimeout" .none, .field k!"operationRef" .none, .field k!"transformationComSpecProps" .nil]),
     [(k!"getEndToEndCallResponseTimeout", .get k!"endToEndCallResponseTimeout") /- 634 -/,
      (k!"setEndToEndCallResponseTimeout", .set k!"endToEndCallResponseTimeout" true) /- 640 -/,
      (k!"getOperationRef", .get k!"operationRef") /- 649 -/,
      (k!"setOperationRef", .set k!"operationRef" true) /- 655 -/,
      (k!"addTransformationComSpecProps", .add k!"transformationComSpecProps" true false) /- 664 -/,
      (k!"getTransformationComSpecProps", .get k!"transformationComSpecProps") /- 673 -/]⟩
    .nil)
   -- M2/AUTOSARTemplates/AdaptivePlatform/PlatformModuleDeployment/CryptoDeployment/CryptoKeySlot.py:22
   k!"CryptoKeySlot" ⟨false, some (2, [.sup 2, .field k!"allocateShadows" .none, .field k!"cryptoAlgIds" .none, .field k!"cryptoObjects" .none, .field k!"keySlotAlloweds" .none, .field k!"keySlotContents" .nil, .field k!"slotCapacitys" .none, .field k!"slotTypes" .none]),
     [(k!"getAllocateShadows", .get k!"allocateShadows") /- 89 -/,
      (k!"setAllocateShadows", .set k!"allocateShadows" false) /- 92 -/,
      (k!"getCryptoAlgIds", .get k!"cryptoAlgIds") /- 96 -/,
      (k!"setCryptoAlgIds", .set k!"cryptoAlgIds" false) /- 99 -/,
      (k!"getCryptoObjects", .get k!"cryptoObjects") /- 103 -/,
      (k!"setCryptoObjects", .set k!"cryptoObjects" false) /- 106 -/,
      (k!"getKeySlotAlloweds", .get k!"keySlotAlloweds") /- 110 -/,
      (k!"setKeySlotAlloweds", .set k!"keySlotAlloweds" false) /- 113 -/,
      (k!"getKeySlotContents", .get k!"keySlotContents") /- 117 -/,
      (k!"setKeySlotContents", .set k!"keySlotContents" false) /- 120 -/,
      (k!"createKeySlotContent", .other) /- 124 -/,
      (k!"getSlotCapacitys", .get k!"slotCapacitys") /- 134 -/,
      (k!"setSlotCapacitys", .set k!"slotCapacitys" false) /- 137 -/,
      (k!"getSlotTypes", .get k!"slotTypes") /- 141 -/,
      (k!"setSlotTypes", .set k!"slotTypes" false) /- 144 -/]⟩
   (.node .nil
    -- M2/AUTOSARTemplates/SWComponentTemplate/PortInterface/__init__.py:123
    k!"DataInterface" ⟨true, some (2, [.guard k!"DataInterface", .sup 2]),
     []⟩
    .nil))
  -- M2/AUTOSARTemplates/SWComponentTemplate/Datatype/DataPrototypes.py:25
  k!"DataPrototype" ⟨true, some (2, [.guard k!"DataPrototype", .sup 2, .field k!"swDataDefProps" .none]),
     [(k!"getSwDataDefProps", .get k!"swDataDefProps") /- 46 -/,
      (k!"setSwDataDefProps", .set k!"swDataDefProps" true) /- 55 -/]⟩
  (.node (.node .nil
    -- M2/AUTOSARTemplates/GenericStructure/DocumentationOnM1/__init__.py:12
    k!"Documentation" ⟨false, some (2, [.sup 2, .field k!"contexts" .nil, .field k!"documentationContent" .none]),
     [(k!"addContext", .add k!"contexts" true false) /- 36 -/,
      (k!"getContexts", .get k!"contexts") /- 49 -/,
      (k!"setDocumentationContent", .set k!"documentationContent" true) /- 58 -/,
      (k!"getDocumentationContent", .get k!"documentationContent") /- 71 -/]⟩
    .nil)
   -- M2/AUTOSARTemplates/ECUCParameterDefTemplate.py:2349
   k!"EcucModuleDef" ⟨false, some (2, [.sup 2, .field k!"apiServicePrefix" .none, .field k!"containers" .nil, .field k!"postBuildVariantSupport" .none, .field k!"refinedModuleDefRef" .none, .field k!"supportedConfigVariants" .nil]),
     [(k!"getApiServicePrefix", .get k!"apiServicePrefix") /- 2387 -/,
      (k!"setApiServicePrefix", .set k!"apiServicePrefix" true) /- 2393 -/,
      (k!"getContainers", .get k!"containers") /- 2402 -/,
      (k!"createEcucParamConfContainerDef", .other) /- 2408 -/,
      (k!"createEcucChoiceContainerDef", .other) /- 2418 -/,
      (k!"getPostBuildVariantSupport", .get k!"postBuildVariantSupport") /- 2428 -/,
      (k!"setPostBuildVariantSupport", .set k!"postBuildVariantSupport" true) /- 2434 -/,
      (k!"getRefinedModuleDefRef", .get k!"refinedModuleDefRef") /- 2443 -/,
      (k!"setRefinedModuleDefRef", .set k!"refinedModuleDefRef" true) /- 2449 -/,
      (k!"getSupportedConfigVariants", .get k!"supportedConfigVariants") /- 2458 -/,
      (k!"addSupportedConfigVariant", .add k!"supportedConfigVariants" true false) /- 2464 -/]⟩
   (.node .nil
    -- M2/AUTOSARTemplates/ECUCParameterDefTemplate.py:169
    k!"EcucScopeEnum" ⟨false, some (0, [.sup 1]),
     []⟩
    .nil))))

-- M2/AUTOSARTemplates/GenericStructure/GeneralTemplateClasses/Enumerations.py:44
def accTable24 : Bst (ClassAcc) :=
 .node accTable22 k!"XmlSpaceEnum" ⟨false, some (0, [.sup 1]),
     []⟩ accTable23

def accTable25 : Bst (ClassAcc) :=
 (.node (.node (.node (.node (.node .nil
     -- M2/AUTOSARTemplates/CommonStructure/ResourceConsumption/ExecutionTime/__init__.py:19
     k!"ExecutionTime" ⟨true, some (2, [.guard k!"ExecutionTime", .sup 2, .field k!"exclusiveAreaRef" .none, .field k!"executableEntityRef" .none, .field k!"hardwareConfiguration" .none, .field k!"hwElementRef" .none, .field k!"includedLibraryRefs" .nil, .field k!"memorySectionLocations" .nil, .field k!"softwareContext" .none]),
     [(k!"getExclusiveAreaRef", .get k!"exclusiveAreaRef") /- 85 -/,
      (k!"setExclusiveAreaRef", .set k!"exclusiveAreaRef" true) /- 94 -/,
      (k!"getExecutableEntityRef", .get k!"executableEntityRef") /- 109 -/,
      (k!"setExecutableEntityRef", .set k!"executableEntityRef" true) /- 118 -/,
      (k!"getHardwareConfiguration", .get k!"hardwareConfiguration") /- 133 -/,
      (k!"setHardwareConfiguration", .set k!"hardwareConfiguration" true) /- 143 -/,
      (k!"getHwElementRef", .get k!"hwElementRef") /- 160 -/,
      (k!"setHwElementRef", .set k!"hwElementRef" true) /- 169 -/,
      (k!"addIncludedLibraryRef", .add k!"includedLibraryRefs" true false) /- 185 -/,
      (k!"getIncludedLibraryRefs", .get k!"includedLibraryRefs") /- 201 -/,
      (k!"addMemorySectionLocation", .add k!"memorySectionLocations" true false) /- 211 -/,
      (k!"getMemorySectionLocations", .get k!"memorySectionLocations") /- 225 -/,
      (k!"getSoftwareContext", .get k!"softwareContext") /- 234 -/,
      (k!"setSoftwareContext", .set k!"softwareContext" true) /- 244 -/]⟩
     .nil)
    -- M2/AUTOSARTemplates/SystemTemplate/NetworkManagement.py:383
    k!"FlexrayNmNode" ⟨false, some (2, [.sup 2]),
     []⟩
    .nil)
   -- M2/AUTOSARTemplates/SystemTemplate/NetworkManagement.py:434
   k!"J1939NodeName" ⟨false, some (0, [.sup 0, .field k!"arbitraryAddressCapable" .none, .field k!"ecuInstance" .none, .field k!"function" .none, .field k!"functionInstance" .none, .field k!"identitiyNumber" .none, .field k!"industryGroup" .none, .field k!"manufacturerCode" .none, .field k!"vehicleSystem" .none, .field k!"vehicleSystemInstance" .none]),
     [(k!"getArbitraryAddressCapable", .get k!"arbitraryAddressCapable") /- 493 -/,
      (k!"setArbitraryAddressCapable", .set k!"arbitraryAddressCapable" true) /- 499 -/,
      (k!"getEcuInstance", .get k!"ecuInstance") /- 508 -/,
      (k!"setEcuInstance", .set k!"ecuInstance" true) /- 514 -/,
      (k!"getFunction", .get k!"function") /- 523 -/,
      (k!"setFunction", .set k!"function" true) /- 529 -/,
      (k!"getFunctionInstance", .get k!"functionInstance") /- 538 -/,
      (k!"setFunctionInstance", .set k!"functionInstance" true) /- 544 -/,
      (k!"getIdentitiyNumber", .get k!"identitiyNumber") /- 553 -/,
      (k!"setIdentitiyNumber", .set k!"identitiyNumber" true) /- 559 -/,
      (k!"getIndustryGroup", .get k!"industryGroup") /- 568 -/,
      (k!"setIndustryGroup", .set k!"industryGroup" true) /- 574 -/,
      (k!"getManufacturerCode", .get k!"manufacturerCode") /- 583 -/,
      (k!"setManufacturerCode", .set k!"manufacturerCode" true) /- 589 -/,
      (k!"getVehicleSystem", .get k!"vehicleSystem") /- 598 -/,
      (k!"setVehicleSystem", .set k!"vehicleSystem" true) /- 604 -/,
      (k!"getVehicleSystemInstance", .get k!"vehicleSystemInstance") /- 613 -/,
      (k!"setVehicleSystemInstance", .set k!"vehicleSystemInstance" true) /- 619 -/]⟩
   (.node .nil
    -- M2/AUTOSARTemplates/GenericStructure/LifeCycles.py:110
    k!"LifeCycleInfo" ⟨false, some (0, [.sup 0, .field k!"lcObjectRef" .none, .field k!"lcStateRef" .none, .field k!"periodBegin" .none, .field k!"periodEnd" .none, .field k!"remark" .none, .field k!"useInsteadRefs" .nil]),
     [(k!"getLcObjectRef", .get k!"lcObjectRef") /- 141 -/,
      (k!"setLcObjectRef", .set k!"lcObjectRef" true) /- 150 -/,
      (k!"getLcStateRef", .get k!"lcStateRef") /- 165 -/,
      (k!"setLcStateRef", .set k!"lcStateRef" true) /- 174 -/,
      (k!"getPeriodBegin", .get k!"periodBegin") /- 189 -/,
      (k!"setPeriodBegin", .set k!"periodBegin" true) /- 198 -/,
      (k!"getPeriodEnd", .get k!"periodEnd") /- 213 -/,
      (k!"setPeriodEnd", .set k!"periodEnd" true) /- 222 -/,
      (k!"getRemark", .get k!"remark") /- 237 -/,
      (k!"setRemark", .set k!"remark" true) /- 246 -/,
      (k!"getUseInsteadRefs", .get k!"useInsteadRefs") /- 261 -/,
      (k!"addUseInsteadRef", .add k!"useInsteadRefs" true false) /- 270 -/]⟩
    .nil))
  -- M2/AUTOSARTemplates/CommonStructure/MeasurementCalibrationSupport/__init__.py:1382
  k!"McSupportData" ⟨false, some (0, [.sup 0, .field k!"emulationSupports" .nil, .field k!"mcParameterInstances" .nil, .field k!"mcVariableInstances" .nil, .field k!"measurableSystemConstantValuesRefs" .nil, .field k!"rptSupportData" .none]),
     [(k!"addEmulationSupport", .add k!"emulationSupports" true false) /- 1423 -/,
      (k!"getEmulationSupports", .get k!"emulationSupports") /- 1438 -/,
      (k!"createMcParameterInstance", .other) /- 1447 -/,
      (k!"getMcParameterInstances", .get k!"mcParameterInstances") /- 1465 -/,
      (k!"createMcVariableInstance", .other) /- 1474 -/,
      (k!"getMcVariableInstances", .get k!"mcVariableInstances") /- 1492 -/,
      (k!"addMeasurableSystemConstantValuesRef", .add k!"measurableSystemConstantValuesRefs" true false) /- 1501 -/,
      (k!"getMeasurableSystemConstantValuesRefs", .get k!"measurableSystemConstantValuesRefs") /- 1516 -/,
      (k!"getRptSupportData", .get k!"rptSupportData") /- 1525 -/,
      (k!"setRptSupportData", .set k!"rptSupportData" true) /- 1534 -/]⟩
  (.node (.node .nil
    -- M2/AUTOSARTemplates/GenericStructure/GeneralTemplateClasses/PrimitiveTypes.py:1419
    k!"McdIdentifier" ⟨false, some (0, [.sup 0]),
     []⟩
    .nil)
   -- M2/AUTOSARTemplates/CommonStructure/ResourceConsumption/MemorySectionUsage.py:13
   k!"MemorySection" ⟨false, some (2, [.sup 2, .field k!"alignment" .none, .field k!"executableEntityRefs" .nil, .field k!"memClassSymbol" .none, .field k!"options" .nil, .field k!"prefixRef" .none, .field k!"size" .none, .field k!"swAddrMethodRef" .none, .field k!"symbol" .none]),
     [(k!"getAlignment", .get k!"alignment") /- 91 -/,
      (k!"setAlignment", .set k!"alignment" true) /- 100 -/,
      (k!"addExecutableEntityRef", .add k!"executableEntityRefs" true false) /- 115 -/,
      (k!"getExecutableEntityRefs", .get k!"executableEntityRefs") /- 130 -/,
      (k!"getMemClassSymbol", .get k!"memClassSymbol") /- 141 -/,
      (k!"setMemClassSymbol", .set k!"memClassSymbol" true) /- 152 -/,
      (k!"addOption", .add k!"options" true false) /- 169 -/,
      (k!"getOptions", .get k!"options") /- 186 -/,
      (k!"getPrefixRef", .get k!"prefixRef") /- 197 -/,
      (k!"setPrefixRef", .set k!"prefixRef" true) /- 208 -/,
      (k!"getSize", .get k!"size") /- 225 -/,
      (k!"setSize", .set k!"size" true) /- 234 -/,
      (k!"getSwAddrMethodRef", .get k!"swAddrMethodRef") /- 249 -/,
      (k!"setSwAddrMethodRef", .set k!"swAddrMethodRef" true) /- 261 -/,
      (k!"getSymbol", .get k!"symbol") /- 279 -/,
      (k!"setSymbol", .set k!"symbol" true) /- 290 -/]⟩
   (.node .nil
    -- M2/MSR/Documentation/TextModel/MsrQuery.py:77
    k!"MsrQueryProps" ⟨false, some (0, [.sup 0, .field k!"comment" .none, .field k!"msrQueryName" .none, .field k!"msrQueryArgs" .nil]),
     [(k!"getComment", .get k!"comment") /- 106 -/,
      (k!"setComment", .set k!"comment" true) /- 115 -/,
      (k!"getMsrQueryName", .get k!"msrQueryName") /- 126 -/,
      (k!"setMsrQueryName", .set k!"msrQueryName" true) /- 135 -/,
      (k!"addMsrQueryArg", .add k!"msrQueryArgs" true false) /- 146 -/,
      (k!"getMsrQueryArgs", .get k!"msrQueryArgs") /- 157 -/]⟩
    .nil)))
 -- M2/AUTOSARTemplates/SystemTemplate/Fibex/FibexCore/CoreCommunication.py:1481
 k!"PduTriggering" ⟨false, some (2, [.sup 2, .field k!"iPduRef" .none, .field k!"iPduPortRefs" .nil, .field k!"iSignalTriggeringRefs" .nil, .field k!"secOcCryptoMappingRef" .none, .field k!"triggerIPduSendConditions" .nil]),
     [(k!"getIPduRef", .get k!"iPduRef") /- 1510 -/,
      (k!"setIPduRef", .set k!"iPduRef" false) /- 1513 -/,
      (k!"getIPduPortRefs", .get k!"iPduPortRefs") /- 1517 -/,
      (k!"addIPduPortRef", .add k!"iPduPortRefs" false false) /- 1520 -/,
      (k!"getISignalTriggeringRefs", .get k!"iSignalTriggeringRefs") /- 1524 -/,
      (k!"addISignalTriggeringRef", .add k!"iSignalTriggeringRefs" false false) /- 1528 -/,
      (k!"getSecOcCryptoMappingRef", .get k!"secOcCryptoMappingRef") /- 1532 -/,
      (k!"setSecOcCryptoMappingRef", .set k!"secOcCryptoMappingRef" false) /- 1535 -/,
      (k!"getTriggerIPduSendConditions", .get k!"triggerIPduSendConditions") /- 1539 -/,
      (k!"addTriggerIPduSendCondition", .add k!"triggerIPduSendConditions" false false) /- 1542 -/]⟩
 (.node (.node (.node .nil
    -- M2/AUTOSARTemplates/SWComponentTemplate/SwcInternalBehavior/PortAPIOptions.py:75
    k!"PortAPIOption" ⟨false, some (0, [.sup 0, .field k!"enableTakeAddress" .none, .field k!"errorHandling" .none, .field k!"indirectAPI" .none, .field k!"portRef" .none, .field k!"portArgValues" .nil, .field k!"supportedFeatures" .nil, .field k!"transformerStatusForwarding" .none]),
     [(k!"getEnableTakeAddress", .get k!"enableTakeAddress") /- 109 -/,
      (k!"setEnableTakeAddress", .set k!"enableTakeAddress" false) /- 118 -/,
      (k!"getErrorHandling", .get k!"errorHandling") /- 131 -/,
      (k!"setErrorHandling", .set k!"errorHandling" false) /- 140 -/,
      (k!"getIndirectAPI", .get k!"indirectAPI") /- 153 -/,
      (k!"setIndirectAPI", .set k!"indirectAPI" false) /- 162 -/,
      (k!"getPortRef", .get k!"portRef") /- 175 -/,
      (k!"setPortRef", .set k!"portRef" false) /- 184 -/,
      (k!"getPortArgValues", .get k!"portArgValues") /- 197 -/,
      (k!"addPortArgValue", .add k!"portArgValues" false false) /- 206 -/,
      (k!"getSupportedFeatures", .get k!"supportedFeatures") /- 219 -/,
      (k!"addSupportedFeature", .add k!"supportedFeatures" false false) /- 228 -/,
      (k!"getTransformerStatusForwarding", .get k!"transformerStatusForwarding") /- 241 -/,
      (k!"setTransformerStatusForwarding", .set k!"transformerStatusForwarding" false) /- 250 -/]⟩
    .nil)
   -- M2/AUTOSARTemplates/SWComponentTemplate/PortInterface/__init__.py:33
   k!"PortInterface" ⟨true, some (2, [.guard k!"PortInterface", .sup 2, .field k!"isService" .none, .field k!"serviceKind" .none]),
     [(k!"getIsService", .get k!"isService") /- 60 -/,
      (k!"setIsService", .set k!"isService" true) /- 74 -/,
      (k!"getServiceKind", .get k!"serviceKind") /- 94 -/,
      (k!"setServiceKind", .set k!"serviceKind" true) /- 105 -/]⟩
   (.node .nil
    -- M2/AUTOSARTemplates/SWComponentTemplate/Components/__init__.py:49
    k!"PortPrototype" ⟨true, some (2, [.guard k!"PortPrototype", .sup 2, .field k!"clientServerAnnotations" .nil, .field k!"delegatedPortAnnotation" .none, .field k!"ioHwAbstractionServerAnnotations" .nil, .field k!"modePortAnnotations" .nil, .field k!"nvDataPortAnnotations" .nil, .field k!"parameterPortAnnotations" .nil, .field k!"senderReceiverAnnotations" .nil, .field k!"triggerPortAnnotations" .nil]),
     [(k!"getClientServerAnnotations", .get k!"clientServerAnnotations") /- 104 -/,
      (k!"addClientServerAnnotation", .add k!"clientServerAnnotations" true false) /- 113 -/,
      (k!"getDelegatedPortAnnotation", .get k!"delegatedPortAnnotation") /- 128 -/,
      (k!"setDelegatedPortAnnotation", .set k!"delegatedPortAnnotation" true) /- 137 -/,
      (k!"getIoHwAbstractionServerAnnotations", .get k!"ioHwAbstractionServerAnnotations") /- 152 -/,
      (k!"addIoHwAbstractionServerAnnotation", .add k!"ioHwAbstractionServerAnnotations" true false) /- 161 -/,
      (k!"getModePortAnnotations", .get k!"modePortAnnotations") /- 176 -/,
      (k!"addModePortAnnotation", .add k!"modePortAnnotations" true false) /- 185 -/,
      (k!"getNvDataPortAnnotations", .get k!"nvDataPortAnnotations") /- 200 -/,
      (k!"addNvDataPortAnnotation", .add k!"nvDataPortAnnotations" true false) /- 209 -/,
      (k!"getParameterPortAnnotations", .get k!"parameterPortAnnotations") /- 224 -/,
      (k!"addParameterPortAnnotation", .add k!"parameterPortAnnotations" true false) /- 233 -/,
      (k!"getSenderReceiverAnnotations", .get k!"senderReceiverAnnotations") /- 248 -/,
      (k!"addSenderReceiverAnnotation", .add k!"senderReceiverAnnotations" true false) /- 257 -/,
      (k!"getTriggerPortAnnotations", .get k!"triggerPortAnnotations") /- 272 -/,
      (k!"addTriggerPortAnnotation", .add k!"triggerPortAnnotations" true false) /- 281 -/]⟩
    .nil))
  -- M2/AUTOSARTemplates/SWComponentTemplate/ApplicationAttributes/__init__.py:98
  k!"PulseTestEnum" ⟨false, some (0, [.sup 1]),
     []⟩
  (.node (.node .nil
    -- M2/AUTOSARTemplates/GenericStructure/GeneralTemplateClasses/ARPackage.py:98
    k!"ReferenceBase" ⟨false, some (0, [.sup 0, .field k!"globalElements" .nil, .field k!"globalInPackageRefs" .nil, .field k!"isDefault" .none, .field k!"isGlobal" .none, .field k!"BaseIsThisPackage" .none, .field k!"packageRef" .none, .field k!"shortLabel" .none]),
     [(k!"getGlobalElements", .get k!"globalElements") /- 144 -/,
      (k!"addGlobalElement", .add k!"globalElements" false false) /- 153 -/,
      (k!"getGlobalInPackageRefs", .get k!"globalInPackageRefs") /- 166 -/,
      (k!"addGlobalInPackageRef", .add k!"globalInPackageRefs" false false) /- 175 -/,
      (k!"getIsDefault", .get k!"isDefault") /- 188 -/,
      (k!"setIsDefault", .set k!"isDefault" false) /- 197 -/,
      (k!"getIsGlobal", .get k!"isGlobal") /- 210 -/,
      (k!"setIsGlobal", .set k!"isGlobal" false) /- 219 -/,
      (k!"getBaseIsThisPackage", .get k!"BaseIsThisPackage") /- 232 -/,
      (k!"setBaseIsThisPackage", .set k!"BaseIsThisPackage" false) /- 241 -/,
      (k!"getPackageRef", .get k!"packageRef") /- 254 -/,
      (k!"setPackageRef", .set k!"packageRef" false) /- 263 -/,
      (k!"getShortLabel", .get k!"shortLabel") /- 276 -/,
      (k!"setShortLabel", .set k!"shortLabel" false) /- 285 -/]⟩
    .nil)
   -- M2/AUTOSARTemplates/CommonStructure/MeasurementCalibrationSupport/RptSupport/__init__.py:18
   k!"RptAccessEnum" ⟨false, some (0, [.sup 1]),
     []⟩
   (.node .nil
    -- M2/AUTOSARTemplates/SWComponentTemplate/RPTScenario.py:67
    k!"RptImplPolicy" ⟨false, some (0, [.sup 0, .field k!"rptEnablerImplType" .none, .field k!"rptPreparationLevel" .none]),
     [(k!"getRptEnablerImplType", .get k!"rptEnablerImplType") /- 93 -/,
      (k!"setRptEnablerImplType", .set k!"rptEnablerImplType" true) /- 102 -/,
      (k!"getRptPreparationLevel", .get k!"rptPreparationLevel") /- 117 -/,
      (k!"setRptPreparationLevel", .set k!"rptPreparationLevel" true) /- 126 -/]⟩
    .nil))))

def accTable26 : Bst (ClassAcc) :=
 (.node (.node (.node (.node .nil
    -- M2/AUTOSARTemplates/SWComponentTemplate/Communication.py:379
    k!"SenderComSpec" ⟨true, some (0, [.guard k!"SenderComSpec", .sup 0, .field k!"compositeNetworkRepresentations" .nil, .field k!"dataElementRef" .none, .field k!"handleOutOfRange" .none, .field k!"networkRepresentation" .none, .field k!"transmissionAcknowledge" .none, .field k!"transmissionProps" .none, .field k!"usesEndToEndProtection" .none]),
     [(k!"addCompositeNetworkRepresentation", .add k!"compositeNetworkRepresentations" true false) /- 431 -/,
      (k!"getCompositeNetworkRepresentations", .get k!"compositeNetworkRepresentations") /- 440 -/,
      (k!"getDataElementRef", .get k!"dataElementRef") /- 446 -/,
      (k!"setDataElementRef", .set k!"dataElementRef" true) /- 452 -/,
      (k!"getHandleOutOfRange", .get k!"handleOutOfRange") /- 461 -/,
      (k!"setHandleOutOfRange", .set k!"handleOutOfRange" true) /- 467 -/,
      (k!"getNetworkRepresentation", .get k!"networkRepresentation") /- 476 -/,
      (k!"setNetworkRepresentation", .set k!"networkRepresentation" true) /- 482 -/,
      (k!"getTransmissionAcknowledge", .get k!"transmissionAcknowledge") /- 491 -/,
      (k!"setTransmissionAcknowledge", .set k!"transmissionAcknowledge" true) /- 497 -/,
      (k!"getTransmissionProps", .get k!"transmissionProps") /- 506 -/,
      (k!"setTransmissionProps", .set k!"transmissionProps" true) /- 512 -/,
      (k!"getUsesEndToEndProtection", .get k!"usesEndToEndProtection") /- 521 -/,
      (k!"setUsesEndToEndProtection", .set k!"usesEndToEndProtection" true) /- 527 -/]⟩
    .nil)
   -- M2/AUTOSARTemplates/SWComponentTemplate/Communication.py:1405
   k!"ServerComSpec" ⟨false, some (0, [.sup 0, .field k!"operationRef" .none, .field k!"queueLength" .none, .field k!"transformationComSpecProps" .nil]),
     [(k!"getOperationRef", .get k!"operationRef") /- 1434 -/,
      (k!"setOperationRef", .set k!"operationRef" true) /- 1440 -/,
      (k!"getQueueLength", .get k!"queueLength") /- 1449 -/,
      (k!"setQueueLength", .set k!"queueLength" true) /- 1455 -/,
      (k!"addTransformationComSpecProps", .add k!"transformationComSpecProps" true false) /- 1464 -/,
      (k!"getTransformationComSpecProps", .get k!"transformationComSpecProps") /- 1473 -/]⟩
   (.node .nil
    -- M2/AUTOSARTemplates/SWComponentTemplate/ApplicationAttributes/__init__.py:123
    k!"SignalFanEnum" ⟨false, some (0, [.sup 1]),
     []⟩
    .nil))
  -- M2/AUTOSARTemplates/SystemTemplate/Fibex/Fibex4Ethernet/ServiceInstances.py:1216
  k!"SocketAddress" ⟨false, some (2, [.sup 2, .field k!"allowedIPv6ExtHeadersRef" .none, .field k!"allowedTcpOptionsRef" .none, .field k!"applicationEndpoint" .none, .field k!"connectorRef" .none, .field k!"differentiatedServiceField" .none, .field k!"flowLabel" .none, .field k!"multicastConnectorRefs" .nil, .field k!"pathMtuDiscoveryEnabled" .none, .field k!"pduCollectionMaxBufferSize" .none, .field k!"pduCollectionTimeout" .none, .field k!"portAddress" .none, .field k!"staticSocketConnections" .nil, .field k!"udpChecksumHandling" .none]),
     [(k!"getAllowedIPv6ExtHeadersRef", .get k!"allowedIPv6ExtHeadersRef") /- 1269 -/,
      (k!"setAllowedIPv6ExtHeadersRef", .set k!"allowedIPv6ExtHeadersRef" false) /- 1272 -/,
      (k!"getAllowedTcpOptionsRef", .get k!"allowedTcpOptionsRef") /- 1276 -/,
      (k!"setAllowedTcpOptionsRef", .set k!"allowedTcpOptionsRef" false) /- 1279 -/,
      (k!"getApplicationEndpoint", .get k!"applicationEndpoint") /- 1283 -/,
      (k!"createApplicationEndpoint", .other) /- 1286 -/,
      (k!"getConnectorRef", .get k!"connectorRef") /- 1291 -/,
      (k!"setConnectorRef", .set k!"connectorRef" false) /- 1294 -/,
      (k!"getDifferentiatedServiceField", .get k!"differentiatedServiceField") /- 1298 -/,
      (k!"setDifferentiatedServiceField", .set k!"differentiatedServiceField" false) /- 1301 -/,
      (k!"getFlowLabel", .get k!"flowLabel") /- 1305 -/,
      (k!"setFlowLabel", .set k!"flowLabel" false) /- 1308 -/,
      (k!"getMulticastConnectorRefs", .get k!"multicastConnectorRefs") /- 1312 -/,
      (k!"addMulticastConnectorRef", .add k!"multicastConnectorRefs" false false) /- 1315 -/,
      (k!"getPathMtuDiscoveryEnabled", .get k!"pathMtuDiscoveryEnabled") /- 1319 -/,
      (k!"setPathMtuDiscoveryEnabled", .set k!"pathMtuDiscoveryEnabled" false) /- 1322 -/,
      (k!"getPduCollectionMaxBufferSize", .get k!"pduCollectionMaxBufferSize") /- 1326 -/,
      (k!"setPduCollectionMaxBufferSize", .set k!"pduCollectionMaxBufferSize" false) /- 1329 -/,
      (k!"getPduCollectionTimeout", .get k!"pduCollectionTimeout") /- 1333 -/,
      (k!"setPduCollectionTimeout", .set k!"pduCollectionTimeout" false) /- 1336 -/,
      (k!"getPortAddress", .get k!"portAddress") /- 1340 -/,
      (k!"setPortAddress", .set k!"portAddress" false) /- 1343 -/,
      (k!"getStaticSocketConnections", .get k!"staticSocketConnections") /- 1347 -/,
      (k!"addStaticSocketConnection", .add k!"staticSocketConnections" false false) /- 1350 -/,
      (k!"getUdpChecksumHandling", .get k!"udpChecksumHandling") /- 1354 -/,
      (k!"setUdpChecksumHandling", .set k!"udpChecksumHandling" false) /- 1357 -/]⟩
  (.node (.node .nil
    -- M2/MSR/Documentation/TextModel/BlockElements/RequirementsTracing.py:77
    k!"StructuredReq" ⟨false, some (0, [.sup 0, .field k!"date" .none, .field k!"importance" .none, .field k!"issuedBy" .none, .field k!"type" .none, .field k!"description" .none, .field k!"rationale" .none, .field k!"dependencies" .none, .field k!"useCase" .none, .field k!"conflicts" .none, .field k!"supportingMaterial" .none, .field k!"remark" .none, .field k!"testedItemRefs" .nil]),
     [(k!"getDate", .get k!"date") /- 151 -/,
      (k!"setDate", .set k!"date" true) /- 160 -/,
      (k!"getImportance", .get k!"importance") /- 171 -/,
      (k!"setImportance", .set k!"importance" true) /- 180 -/,
      (k!"getIssuedBy", .get k!"issuedBy") /- 191 -/,
      (k!"setIssuedBy", .set k!"issuedBy" true) /- 200 -/,
      (k!"getType", .get k!"type") /- 211 -/,
      (k!"setType", .set k!"type" true) /- 220 -/,
      (k!"getDescription", .get k!"description") /- 231 -/,
      (k!"setDescription", .set k!"description" true) /- 240 -/,
      (k!"getRationale", .get k!"rationale") /- 251 -/,
      (k!"setRationale", .set k!"rationale" true) /- 260 -/,
      (k!"getDependencies", .get k!"dependencies") /- 271 -/,
      (k!"setDependencies", .set k!"dependencies" true) /- 280 -/,
      (k!"getUseCase", .get k!"useCase") /- 291 -/,
      (k!"setUseCase", .set k!"useCase" true) /- 300 -/,
      (k!"getConflicts", .get k!"conflicts") /- 311 -/,
      (k!"setConflicts", .set k!"conflicts" true) /- 320 -/,
      (k!"getSupportingMaterial", .get k!"supportingMaterial") /- 331 -/,
      (k!"setSupportingMaterial", .set k!"supportingMaterial" true) /- 340 -/,
      (k!"getRemark", .get k!"remark") /- 351 -/,
      (k!"setRemark", .set k!"remark" true) /- 360 -/,
      (k!"getTestedItemRefs", .get k!"testedItemRefs") /- 371 -/,
      (k!"addTestedItemRef", .add k!"testedItemRefs" true false) /- 380 -/]⟩
    .nil)
   -- M2/MSR/DataDictionary/Axis.py:62
   k!"SwAxisGeneric" ⟨false, some (0, [.sup 0, .field k!"swAxisTypeRef" .none, .field k!"swGenericAxisParams" .nil]),
     [(k!"getSwAxisTypeRef", .get k!"swAxisTypeRef") /- 86 -/,
      (k!"setSwAxisTypeRef", .set k!"swAxisTypeRef" true) /- 92 -/,
      (k!"getSwGenericAxisParams", .get k!"swGenericAxisParams") /- 101 -/,
      (k!"addSwGenericAxisParam", .add k!"swGenericAxisParams" true false) /- 107 -/]⟩
   (.node .nil
    -- M2/MSR/DataDictionary/Axis.py:211
    k!"SwAxisGrouped" ⟨false, some (0, [.sup 0, .field k!"sharedAxisTypeRef" .none, .field k!"swAxisIndex" .none, .field k!"swCalprmRef" .none]),
     [(k!"getSharedAxisTypeRef", .get k!"sharedAxisTypeRef") /- 233 -/,
      (k!"setSharedAxisTypeRef", .set k!"sharedAxisTypeRef" false) /- 236 -/,
      (k!"getSwAxisIndex", .get k!"swAxisIndex") /- 240 -/,
      (k!"setSwAxisIndex", .set k!"swAxisIndex" false) /- 243 -/,
      (k!"getSwCalprmRef", .get k!"swCalprmRef") /- 247 -/,
      (k!"setSwCalprmRef", .set k!"swCalprmRef" false) /- 250 -/]⟩
    .nil)))
 -- M2/MSR/DataDictionary/SystemConstant.py:6
 k!"SwSystemconst" ⟨false, some (2, [.sup 2, .field k!"swDataDefProps" .none]),
     [(k!"setSwDataDefProps", .set k!"swDataDefProps" false) /- 27 -/,
      (k!"getSwDataDefProps", .get k!"swDataDefProps") /- 38 -/]⟩
 (.node (.node (.node .nil
    -- M2/AUTOSARTemplates/CommonStructure/SwcBswMapping.py:93
    k!"SwcBswMapping" ⟨false, some (2, [.sup 2, .field k!"bswBehaviorRef" .none, .field k!"runnableMappings" .nil, .field k!"swcBehaviorRef" .none, .field k!"synchronizedModeGroups" .nil, .field k!"synchronizedTriggers" .nil]),
     [(k!"getBswBehaviorRef", .get k!"bswBehaviorRef") /- 135 -/,
      (k!"setBswBehaviorRef", .set k!"bswBehaviorRef" false) /- 144 -/,
      (k!"getRunnableMappings", .get k!"runnableMappings") /- 158 -/,
      (k!"addRunnableMapping", .add k!"runnableMappings" false false) /- 167 -/,
      (k!"getSwcBehaviorRef", .get k!"swcBehaviorRef") /- 180 -/,
      (k!"setSwcBehaviorRef", .set k!"swcBehaviorRef" false) /- 189 -/,
      (k!"getSynchronizedModeGroups", .get k!"synchronizedModeGroups") /- 203 -/,
      (k!"setSynchronizedModeGroups", .set k!"synchronizedModeGroups" false) /- 212 -/,
      (k!"addSynchronizedModeGroup", .add k!"synchronizedModeGroups" true false) /- 226 -/,
      (k!"getSynchronizedTriggers", .get k!"synchronizedTriggers") /- 241 -/,
      (k!"setSynchronizedTriggers", .set k!"synchronizedTriggers" false) /- 250 -/,
      (k!"addSynchronizedTrigger", .add k!"synchronizedTriggers" true false) /- 264 -/]⟩
    .nil)
   -- M2/AUTOSARTemplates/SystemTemplate/__init__.py:126
   k!"SystemMapping" ⟨false, some (2, [.sup 2, .field k!"applicationPartitionToEcuPartitionMappings" .nil, .field k!"appOsTaskProxyToEcuTaskProxyMappings" .nil, .field k!"comManagementMappings" .nil, .field k!"cryptoServiceMappings" .nil, .field k!"dataMappings" .nil, .field k!"ddsISignalToTopicMappings" .nil, .field k!"ecuResourceMappings" .nil, .field k!"j1939ControllerApplicationToJ1939NmNodeMappings" .nil, .field k!"mappingConstraints" .nil, .field k!"pncMappings" .nil, .field k!"portElementToComResourceMappings" .nil, .field k!"resourceEstimations" .nil, .field k!"resourceToApplicationPartitionMappings" .nil, .field k!"rteEventSeparations" .nil, .field k!"rteEventToOsTaskProxyMappings" .nil, .field k!"signalPathConstraints" .nil, .field k!"softwareClusterToApplicationPartitionMappings" .nil, .field k!"softwareClusterToResourceMappings" .nil, .field k!"swClusterMappings" .nil, .field k!"swcToApplicationPartitionMappings" .nil, .field k!"swImplMappings" .nil, .field k!"swMappings" .nil, .field k!"systemSignalGroupToComResourceMappings" .nil, .field k!"systemSignalToComResourceMappings" .nil]),
     [(k!"getApplicationPartitionToEcuPartitionMappings", .get k!"applicationPartitionToEcuPartitionMappings") /- 214 -/,
      (k!"addApplicationPartitionToEcuPartitionMapping", .add k!"applicationPartitionToEcuPartitionMappings" false false) /- 217 -/,
      (k!"getAppOsTaskProxyToEcuTaskProxyMappings", .get k!"appOsTaskProxyToEcuTaskProxyMappings") /- 221 -/,
      (k!"addAppOsTaskProxyToEcuTaskProxyMapping", .add k!"appOsTaskProxyToEcuTaskProxyMappings" false false) /- 224 -/,
      (k!"getComManagementMappings", .get k!"comManagementMappings") /- 228 -/,
      (k!"addComManagementMapping", .add k!"comManagementMappings" false false) /- 231 -/,
      (k!"getCryptoServiceMappings", .get k!"cryptoServiceMappings") /- 235 -/,
      (k!"addCryptoServiceMapping", .add k!"cryptoServiceMappings" false false) /- 238 -/,
      (k!"getDataMappings", .get k!"dataMappings") /- 242 -/,
      (k!"addDataMapping", .add k!"dataMappings" false false) /- 245 -/,
      (k!"getDdsISignalToTopicMapping", .get k!"ddsISignalToTopicMappings") /- 249 -/,
      (k!"addDdsISignalToTopicMapping", .add k!"ddsISignalToTopicMappings" false false) /- 252 -/,
      (k!"getEcuResourceMappings", .get k!"ecuResourceMappings") /- 256 -/,
      (k!"createECUMapping", .other) /- 259 -/,
      (k!"getJ1939ControllerApplicationToJ1939NmNodeMappings", .get k!"j1939ControllerApplicationToJ1939NmNodeMappings") /- 266 -/,
      (k!"addJ1939ControllerApplicationToJ1939NmNodeMapping", .add k!"j1939ControllerApplicationToJ1939NmNodeMappings" false false) /- 269 -/,
      (k!"getMappingConstraints", .get k!"mappingConstraints") /- 273 -/,
      (k!"addMappingConstraint", .add k!"mappingConstraints" false false) /- 276 -/,
      (k!"getPncMappings", .get k!"pncMappings") /- 280 -/,
      (k!"addPncMapping", .add k!"pncMappings" false false) /- 283 -/,
      (k!"getPortElementToComResourceMappings", .get k!"portElementToComResourceMappings") /- 287 -/,
      (k!"addPortElementToComResourceMapping", .add k!"portElementToComResourceMappings" false false) /- 290 -/,
      (k!"getResourceEstimations", .get k!"resourceEstimations") /- 294 -/,
      (k!"addResourceEstimation", .add k!"resourceEstimations" false false) /- 297 -/,
      (k!"getResourceToApplicationPartitionMappings", .get k!"resourceToApplicationPartitionMappings") /- 301 -/,
      (k!"addResourceToApplicationPartitionMapping", .add k!"resourceToApplicationPartitionMappings" false false) /- 304 -/,
      (k!"getRteEventSeparations", .get k!"rteEventSeparations") /- 308 -/,
      (k!"addRteEventSeparation", .add k!"rteEventSeparations" false false) /- 311 -/,
      (k!"getRteEventToOsTaskProxyMappings", .get k!"rteEventToOsTaskProxyMappings") /- 315 -/,
      (k!"addRteEventToOsTaskProxyMapping", .add k!"rteEventToOsTaskProxyMappings" false false) /- 318 -/,
      (k!"getSignalPathConstraints", .get k!"signalPathConstraints") /- 322 -/,
      (k!"addSignalPathConstraint", .add k!"signalPathConstraints" false false) /- 325 -/,
      (k!"getSoftwareClusterToApplicationPartitionMappings", .get k!"softwareClusterToApplicationPartitionMappings") /- 329 -/,
      (k!"addSoftwareClusterToApplicationPartitionMapping", .add k!"softwareClusterToApplicationPartitionMappings" false false) /- 332 -/,
      (k!"getSoftwareClusterToResourceMappings", .get k!"softwareClusterToResourceMappings") /- 336 -/,
      (k!"addSoftwareClusterToResourceMapping", .add k!"softwareClusterToResourceMappings" false false) /- 339 -/,
      (k!"getSwClusterMappings", .get k!"swClusterMappings") /- 343 -/,
      (k!"addSwClusterMapping", .add k!"swClusterMappings" false false) /- 346 -/,
      (k!"getSwcToApplicationPartitionMappings", .get k!"swcToApplicationPartitionMappings") /- 350 -/,
      (k!"addSwcToApplicationPartitionMappings", .add k!"swcToApplicationPartitionMappings" false false) /- 353 -/,
      (k!"getSwImplMappings", .get k!"swImplMappings") /- 357 -/,
      (k!"createSwcToImplMapping", .other) /- 360 -/,
      (k!"getSwMappings", .get k!"swMappings") /- 367 -/,
      (k!"getSwcToEcuMappings", .other) /- 370 -/,
      (k!"createSwcToEcuMapping", .other) /- 373 -/,
      (k!"getSystemSignalGroupToComResourceMappings", .get k!"systemSignalGroupToComResourceMappings") /- 380 -/,
      (k!"addSystemSignalGroupToComResourceMapping", .add k!"systemSignalGroupToComResourceMappings" false false) /- 383 -/,
      (k!"getSystemSignalToComResourceMappings", .get k!"systemSignalToComResourceMappings") /- 387 -/,
      (k!"addSystemSignalToComResourceMapping", .add k!"systemSignalToComResourceMappings" false false) /- 390 -/]⟩
   (.node .nil
    -- M2/AUTOSARTemplates/SystemTemplate/Fibex/Fibex4Multiplatform.py:158
    k!"TargetIPduRef" ⟨false, some (0, [.sup 0, .field k!"defaultValue" .none, .field k!"targetIPdu" .none]),
     [(k!"getDefaultValue", .get k!"defaultValue") /- 176 -/,
      (k!"setDefaultValue", .set k!"defaultValue" true) /- 179 -/,
      (k!"getTargetIPdu", .get k!"targetIPdu") /- 184 -/,
      (k!"setTargetIPdu", .set k!"targetIPdu" true) /- 187 -/]⟩
    .nil))
  -- M2/AUTOSARTemplates/SystemTemplate/Fibex/FibexCore/Timing.py:67
  k!"TimeRangeType" ⟨false, some (0, [.sup 0, .field k!"tolerance" .none, .field k!"value" .none]),
     [(k!"getTolerance", .get k!"tolerance") /- 86 -/,
      (k!"setTolerance", .set k!"tolerance" false) /- 89 -/,
      (k!"getValue", .get k!"value") /- 93 -/,
      (k!"setValue", .set k!"value" false) /- 96 -/]⟩
  (.node (.node .nil
    -- M2/MSR/Documentation/TextModel/BlockElements/RequirementsTracing.py:12
    k!"TraceableText" ⟨false, some (0, [.sup 0, .field k!"text" .none, .field k!"traceRefs" .nil]),
     [(k!"getText", .get k!"text") /- 36 -/,
      (k!"setText", .set k!"text" true) /- 45 -/,
      (k!"getTraceRefs", .get k!"traceRefs") /- 56 -/,
      (k!"addTraceRef", .add k!"traceRefs" true false) /- 65 -/]⟩
    .nil)
   -- M2/AUTOSARTemplates/CommonStructure/ServiceNeeds.py:2199
   k!"TracedFailure" ⟨true, some (2, [.guard k!"TracedFailure", .sup 2, .field k!"id" .none]),
     [(k!"getId", .get k!"id") /- 2228 -/,
      (k!"setId", .set k!"id" true) /- 2237 -/]⟩
   (.node .nil
    -- M2/AUTOSARTemplates/CommonStructure/ServiceNeeds.py:4550
    k!"V2xMUserNeeds" ⟨false, some (2, [.sup 2]),
     []⟩
    .nil))))

-- M2/AUTOSARTemplates/CommonStructure/Constants/__init__.py:926
def accTable27 : Bst (ClassAcc) :=
 .node accTable25 k!"RuleArguments" ⟨false, some (0, [.sup 0, .field k!"v" .none, .field k!"vf" .none, .field k!"vt" .none, .field k!"vtf" .none]),
     [(k!"getV", .get k!"v") /- 961 -/,
      (k!"setV", .set k!"v" true) /- 970 -/,
      (k!"getVf", .get k!"vf") /- 985 -/,
      (k!"setVf", .set k!"vf" true) /- 995 -/,
      (k!"getVt", .get k!"vt") /- 1011 -/,
      (k!"setVt", .set k!"vt" true) /- 1020 -/,
      (k!"getVtf", .get k!"vtf") /- 1035 -/,
      (k!"setVtf", .set k!"vtf" true) /- 1044 -/]⟩ accTable26

-- M2/AUTOSARTemplates/CommonStructure/InternalBehavior.py:52
def accTable28 : Bst (ClassAcc) :=
 .node accTable24 k!"ExclusiveArea" ⟨false, some (2, [.sup 2]),
     []⟩ accTable27

-- M2/MSR/Documentation/TextModel/BlockElements/Note.py:13
def accTable29 : Bst (ClassAcc) :=
 .node accTable21 k!"NoteTypeEnum" ⟨false, some (0, [.sup 1]),
     []⟩ accTable28

-- M2/AUTOSARTemplates/SystemTemplate/Fibex/FibexCore/CoreTopology.py:269
def accTable30 : Bst (ClassAcc) :=
 .node accTable14 k!"VlanConfig" ⟨false, some (2, [.sup 2, .field k!"vlanIdentifier" .none]),
     [(k!"getVlanIdentifier", .get k!"vlanIdentifier") /- 286 -/,
      (k!"setVlanIdentifier", .set k!"vlanIdentifier" true) /- 289 -/]⟩ accTable29

def accTable31 : Bst (ClassAcc) :=
 (.node (.node (.node (.node (.node .nil
     -- M2/AUTOSARTemplates/GenericStructure/GeneralTemplateClasses/AnyInstanceRef.py:11
     k!"AnyInstanceRef" ⟨false, some (0, [.sup 0, .field k!"baseRef" .none, .field k!"contextElementRefs" .nil, .field k!"targetRef" .none]),
     [(k!"getBaseRef", .get k!"baseRef") /- 33 -/,
      (k!"setBaseRef", .set k!"baseRef" false) /- 42 -/,
      (k!"getContextElementRefs", .get k!"contextElementRefs") /- 55 -/,
      (k!"addContextElementRef", .add k!"contextElementRefs" false false) /- 64 -/,
      (k!"getTargetRef", .get k!"targetRef") /- 77 -/,
      (k!"setTargetRef", .set k!"targetRef" false) /- 86 -/]⟩
     .nil)
    -- M2/AUTOSARTemplates/GenericStructure/AbstractStructure.py:13
    k!"AtpInstanceRef" ⟨true, some (0, [.guard k!"AtpInstanceRef", .sup 0, .field k!"atpBaseRef" .none, .field k!"atpContextElementRefs" .nil, .field k!"atpTargetRef" .none]),
     [(k!"getAtpBaseRef", .get k!"atpBaseRef") /- 38 -/,
      (k!"setAtpBaseRef", .set k!"atpBaseRef" false) /- 47 -/,
      (k!"getAtpContextElementRefs", .get k!"atpContextElementRefs") /- 60 -/,
      (k!"addAtpContextElementRef", .add k!"atpContextElementRefs" false false) /- 69 -/,
      (k!"getAtpTargetRef", .get k!"atpTargetRef") /- 82 -/,
      (k!"setAtpTargetRef", .set k!"atpTargetRef" false) /- 91 -/]⟩
    .nil)
   -- M2/AUTOSARTemplates/BswModuleTemplate/BswInterfaces.py:208
   k!"BswModuleEntry" ⟨false, some (2, [.sup 2, .field k!"arguments" .nil, .field k!"bswEntryKind" .none, .field k!"callType" .none, .field k!"executionContext" .none, .field k!"functionPrototypeEmitter" .none, .field k!"isReentrant" .none, .field k!"isSynchronous" .none, .field k!"returnType" .none, .field k!"role" .none, .field k!"serviceId" .none, .field k!"swServiceImplPolicy" .none]),
     [(k!"getArguments", .get k!"arguments") /- 277 -/,
      (k!"createArgument", .other) /- 283 -/,
      (k!"getBswEntryKind", .get k!"bswEntryKind") /- 299 -/,
      (k!"setBswEntryKind", .set k!"bswEntryKind" true) /- 305 -/,
      (k!"getCallType", .get k!"callType") /- 314 -/,
      (k!"setCallType", .set k!"callType" true) /- 320 -/,
      (k!"getExecutionContext", .get k!"executionContext") /- 329 -/,
      (k!"setExecutionContext", .set k!"executionContext" true) /- 335 -/,
      (k!"getFunctionPrototypeEmitter", .get k!"functionPrototypeEmitter") /- 344 -/,
      (k!"setFunctionPrototypeEmitter", .set k!"functionPrototypeEmitter" true) /- 350 -/,
      (k!"getIsReentrant", .get k!"isReentrant") /- 359 -/,
      (k!"setIsReentrant", .set k!"isReentrant" true) /- 365 -/,
      (k!"getIsSynchronous", .get k!"isSynchronous") /- 374 -/,
      (k!"setIsSynchronous", .set k!"isSynchronous" true) /- 380 -/,
      (k!"getReturnType", .get k!"returnType") /- 389 -/,
      (k!"createReturnType", .other) /- 395 -/,
      (k!"getRole", .get k!"role") /- 411 -/,
      (k!"setRole", .set k!"role" true) /- 417 -/,
      (k!"getServiceId", .get k!"serviceId") /- 426 -/,
      (k!"setServiceId", .set k!"serviceId" true) /- 432 -/,
      (k!"getSwServiceImplPolicy", .get k!"swServiceImplPolicy") /- 441 -/,
      (k!"setSwServiceImplPolicy", .set k!"swServiceImplPolicy" true) /- 447 -/]⟩
   (.node .nil
    -- M2/AUTOSARTemplates/BswModuleTemplate/BswBehavior/__init__.py:1274
    k!"BswTimingEvent" ⟨false, some (2, [.sup 2, .field k!"period" .none]),
     [(k!"getPeriod", .get k!"period") /- 1301 -/,
      (k!"setPeriod", .set k!"period" true) /- 1311 -/]⟩
    .nil))
  -- M2/AUTOSARTemplates/GenericStructure/GeneralTemplateClasses/PrimitiveTypes.py:1231
  k!"CategoryString" ⟨false, some (0, [.sup 0]),
     []⟩
  (.node (.node .nil
    -- M2/MSR/Documentation/Chapters.py:238
    k!"ChapterContent" ⟨false, some (0, [.sup 0, .field k!"topicContent" .none]),
     [(k!"setTopicContent", .set k!"topicContent" true) /- 261 -/,
      (k!"getTopicContent", .get k!"topicContent") /- 274 -/]⟩
    .nil)
   -- M2/MSR/AsamHdo/Constraints/GlobalConstraints.py:442
   k!"DataConstrRule" ⟨false, some (0, [.sup 0, .field k!"constrLevel" .none, .field k!"internalConstrs" .none, .field k!"physConstrs" .none]),
     []⟩
   (.node .nil
    -- M2/AUTOSARTemplates/SystemTemplate/Transformer/__init__.py:195
    k!"DataIdModeEnum" ⟨false, some (0, [.sup 1]),
     []⟩
    .nil)))
 -- M2/AUTOSARTemplates/SystemTemplate/Fibex/Fibex4Flexray/FlexrayTopology.py:582
 k!"FlexrayCluster" ⟨false, some (2, [.sup 2, .field k!"actionPointOffset" .none, .field k!"bit" .none, .field k!"casRxLowMax" .none, .field k!"coldStartAttempts" .none, .field k!"cycle" .none, .field k!"cycleCountMax" .none, .field k!"detectNitError" .none, .field k!"dynamicSlotIdlePhase" .none, .field k!"ignoreAfterTx" .none, .field k!"listenNoise" .none, .field k!"macroPerCycle" .none, .field k!"macrotickDuration" .none, .field k!"maxWithoutClockCorrectionFatal" .none, .field k!"maxWithoutClockCorrectionPassive" .none, .field k!"minislotActionPointOffset" .none, .field k!"minislotDuration" .none, .field k!"networkIdleTime" .none, .field k!"networkManagementVectorLength" .none, .field k!"numberOfMinislots" .none, .field k!"numberOfStaticSlots" .none, .field k!"offsetCorrectionStart" .none, .field k!"payloadLengthStatic" .none, .field k!"safetyMargin" .none, .field k!"sampleClockPeriod" .none, .field k!"staticSlotDuration" .none, .field k!"symbolWindow" .none, .field k!"symbolWindowActionPointOffset" .none, .field k!"syncFrameIdCountMax" .none, .field k!"tranceiverStandbyDelay" .none, .field k!"transmissionStartSequenceDuration" .none, .field k!"wakeupRxIdle" .none, .field k!"wakeupRxLow" .none, .field k!"wakeupRxWindow" .none, .field k!"wakeupTxActive" .none, .field k!"wakeupTxIdle" .none]),
     [(k!"getActionPointOffset", .get k!"actionPointOffset") /- 769 -/,
      (k!"setActionPointOffset", .set k!"actionPointOffset" true) /- 773 -/,
      (k!"getBit", .get k!"bit") /- 780 -/,
      (k!"setBit", .set k!"bit" true) /- 784 -/,
      (k!"getCasRxLowMax", .get k!"casRxLowMax") /- 791 -/,
      (k!"setCasRxLowMax", .set k!"casRxLowMax" true) /- 795 -/,
      (k!"getColdStartAttempts", .get k!"coldStartAttempts") /- 802 -/,
      (k!"setColdStartAttempts", .set k!"coldStartAttempts" true) /- 806 -/,
      (k!"getCycle", .get k!"cycle") /- 813 -/,
      (k!"setCycle", .set k!"cycle" true) /- 817 -/,
      (k!"getCycleCountMax", .get k!"cycleCountMax") /- 824 -/,
      (k!"setCycleCountMax", .set k!"cycleCountMax" true) /- 828 -/,
      (k!"getDetectNitError", .get k!"detectNitError") /- 835 -/,
      (k!"setDetectNitError", .set k!"detectNitError" true) /- 839 -/,
      (k!"getDynamicSlotIdlePhase", .get k!"dynamicSlotIdlePhase") /- 846 -/,
      (k!"setDynamicSlotIdlePhase", .set k!"dynamicSlotIdlePhase" true) /- 850 -/,
      (k!"getIgnoreAfterTx", .get k!"ignoreAfterTx") /- 857 -/,
      (k!"setIgnoreAfterTx", .set k!"ignoreAfterTx" true) /- 861 -/,
      (k!"getListenNoise", .get k!"listenNoise") /- 868 -/,
      (k!"setListenNoise", .set k!"listenNoise" true) /- 872 -/,
      (k!"getMacroPerCycle", .get k!"macroPerCycle") /- 879 -/,
      (k!"setMacroPerCycle", .set k!"macroPerCycle" true) /- 883 -/,
      (k!"getMacrotickDuration", .get k!"macrotickDuration") /- 890 -/,
      (k!"setMacrotickDuration", .set k!"macrotickDuration" true) /- 894 -/,
      (k!"getMaxWithoutClockCorrectionFatal", .get k!"maxWithoutClockCorrectionFatal") /- 901 -/,
      (k!"setMaxWithoutClockCorrectionFatal", .set k!"maxWithoutClockCorrectionFatal" true) /- 905 -/,
      (k!"getMaxWithoutClockCorrectionPassive", .get k!"maxWithoutClockCorrectionPassive") /- 912 -/,
      (k!"setMaxWithoutClockCorrectionPassive", .set k!"maxWithoutClockCorrectionPassive" true) /- 916 -/,
      (k!"getMinislotActionPointOffset", .get k!"minislotActionPointOffset") /- 923 -/,
      (k!"setMinislotActionPointOffset", .set k!"minislotActionPointOffset" true) /- 927 -/,
      (k!"getMinislotDuration", .get k!"minislotDuration") /- 934 -/,
      (k!"setMinislotDuration", .set k!"minislotDuration" true) /- 938 -/,
      (k!"getNetworkIdleTime", .get k!"networkIdleTime") /- 945 -/,
      (k!"setNetworkIdleTime", .set k!"networkIdleTime" true) /- 949 -/,
      (k!"getNetworkManagementVectorLength", .get k!"networkManagementVectorLength") /- 956 -/,
      (k!"setNetworkManagementVectorLength", .set k!"networkManagementVectorLength" true) /- 960 -/,
      (k!"getNumberOfMinislots", .get k!"numberOfMinislots") /- 967 -/,
      (k!"setNumberOfMinislots", .set k!"numberOfMinislots" true) /- 971 -/,
      (k!"getNumberOfStaticSlots", .get k!"numberOfStaticSlots") /- 978 -/,
      (k!"setNumberOfStaticSlots", .set k!"numberOfStaticSlots" true) /- 982 -/,
      (k!"getOffsetCorrectionStart", .get k!"offsetCorrectionStart") /- 989 -/,
      (k!"setOffsetCorrectionStart", .set k!"offsetCorrectionStart" true) /- 993 -/,
      (k!"getPayloadLengthStatic", .get k!"payloadLengthStatic") /- 1000 -/,
      (k!"setPayloadLengthStatic", .set k!"payloadLengthStatic" true) /- 1004 -/,
      (k!"getSafetyMargin", .get k!"safetyMargin") /- 1011 -/,
      (k!"setSafetyMargin", .set k!"safetyMargin" true) /- 1015 -/,
      (k!"getSampleClockPeriod", .get k!"sampleClockPeriod") /- 1022 -/,
      (k!"setSampleClockPeriod", .set k!"sampleClockPeriod" true) /- 1026 -/,
      (k!"getStaticSlotDuration", .get k!"staticSlotDuration") /- 1033 -/,
      (k!"setStaticSlotDuration", .set k!"staticSlotDuration" true) /- 1037 -/,
      (k!"getSymbolWindow", .get k!"symbolWindow") /- 1044 -/,
      (k!"setSymbolWindow", .set k!"symbolWindow" true) /- 1048 -/,
      (k!"getSymbolWindowActionPointOffset", .get k!"symbolWindowActionPointOffset") /- 1055 -/,
      (k!"setSymbolWindowActionPointOffset", .set k!"symbolWindowActionPointOffset" true) /- 1059 -/,
      (k!"getSyncFrameIdCountMax", .get k!"syncFrameIdCountMax") /- 1066 -/,
      (k!"setSyncFrameIdCountMax", .set k!"syncFrameIdCountMax" true) /- 1070 -/,
      (k!"getTranceiverStandbyDelay", .get k!"tranceiverStandbyDelay") /- 1077 -/,
      (k!"setTranceiverStandbyDelay", .set k!"tranceiverStandbyDelay" true) /- 1081 -/,
      (k!"getTransmissionStartSequenceDuration", .get k!"transmissionStartSequenceDuration") /- 1088 -/,
      (k!"setTransmissionStartSequenceDuration", .set k!"transmissionStartSequenceDuration" true) /- 1092 -/,
      (k!"getWakeupRxIdle", .get k!"wakeupRxIdle") /- 1099 -/,
      (k!"setWakeupRxIdle", .set k!"wakeupRxIdle" true) /- 1103 -/,
      (k!"getWakeupRxLow", .get k!"wakeupRxLow") /- 1110 -/,
      (k!"setWakeupRxLow", .set k!"wakeupRxLow" true) /- 1114 -/,
      (k!"getWakeupRxWindow", .get k!"wakeupRxWindow") /- 1121 -/,
      (k!"setWakeupRxWindow", .set k!"wakeupRxWindow" true) /- 1125 -/,
      (k!"getWakeupTxActive", .get k!"wakeupTxActive") /- 1132 -/,
      (k!"setWakeupTxActive", .set k!"wakeupTxActive" true) /- 1136 -/,
      (k!"getWakeupTxIdle", .get k!"wakeupTxIdle") /- 1143 -/,
      (k!"setWakeupTxIdle", .set k!"wakeupTxIdle" true) /- 1147 -/]⟩
 (.node (.node (.node .nil
    -- M2/MSR/Documentation/BlockElements/Figure.py:8
    k!"GraphicFitEnum" ⟨false, some (1, [.sup 1]),
     []⟩
    .nil)
   -- M2/AUTOSARTemplates/EcuResourceTemplate/HwElementCategory.py:45
   k!"HwAttributeDef" ⟨false, some (2, [.sup 2, .field k!"hwAttributeLiterals" .nil, .field k!"isRequired" .none, .field k!"unitRef" .none]),
     [(k!"getHwAttributeLiterals", .get k!"hwAttributeLiterals") /- 76 -/,
      (k!"setHwAttributeLiterals", .set k!"hwAttributeLiterals" true) /- 80 -/,
      (k!"createHwAttributeLiteral", .other) /- 86 -/,
      (k!"addHwAttributeLiteral", .add k!"hwAttributeLiterals" false true) /- 94 -/,
      (k!"getIsRequired", .get k!"isRequired") /- 100 -/,
      (k!"setIsRequired", .set k!"isRequired" true) /- 104 -/,
      (k!"getUnitRef", .get k!"unitRef") /- 110 -/,
      (k!"setUnitRef", .set k!"unitRef" true) /- 114 -/]⟩
   (.node .nil
    -- M2/AUTOSARTemplates/EcuResourceTemplate/__init__.py:318
    k!"HwPinConnector" ⟨false, some (0, [.sup 0, .field k!"hwPinRefs" .nil]),
     [(k!"addHwPinRef", .add k!"hwPinRefs" true false) /- 339 -/,
      (k!"getHwPinRefs", .get k!"hwPinRefs") /- 352 -/]⟩
    .nil))
  -- M2/AUTOSARTemplates/SystemTemplate/Fibex/Fibex4Multiplatform.py:53
  k!"ISignalMapping" ⟨false, some (0, [.sup 0, .field k!"introduction" .none, .field k!"sourceSignalRef" .none, .field k!"targetSignalRef" .none]),
     [(k!"getIntroduction", .get k!"introduction") /- 75 -/,
      (k!"setIntroduction", .set k!"introduction" false) /- 78 -/,
      (k!"getSourceSignalRef", .get k!"sourceSignalRef") /- 82 -/,
      (k!"setSourceSignalRef", .set k!"sourceSignalRef" false) /- 85 -/,
      (k!"getTargetSignalRef", .get k!"targetSignalRef") /- 89 -/,
      (k!"setTargetSignalRef", .set k!"targetSignalRef" false) /- 92 -/]⟩
  (.node (.node .nil
    -- M2/AUTOSARTemplates/CommonStructure/Implementation.py:585
    k!"Implementation" ⟨true, some (2, [.guard k!"Implementation", .sup 2, .field k!"buildActionManifestRef" .none, .field k!"codeDescriptors" .nil, .field k!"compilers" .nil, .field k!"generatedArtifacts" .nil, .field k!"hwElementRefs" .nil, .field k!"linkers" .nil, .field k!"mcSupport" .none, .field k!"programmingLanguage" .none, .field k!"requiredArtifacts" .nil, .field k!"requiredGeneratorTools" .nil, .field k!"resourceConsumption" .none, .field k!"swcBswMappingRef" .none, .field k!"swVersion" .none, .field k!"usedCodeGenerator" .none, .field k!"vendorId" .none]),
     [(k!"getBuildActionManifestRef", .get k!"buildActionManifestRef") /- 692 -/,
      (k!"setBuildActionManifestRef", .set k!"buildActionManifestRef" true) /- 702 -/,
      (k!"getCodeDescriptors", .other) /- 718 -/,
      (k!"createCodeDescriptor", .other) /- 727 -/,
      (k!"getCompilers", .get k!"compilers") /- 743 -/,
      (k!"createCompiler", .other) /- 752 -/,
      (k!"getGeneratedArtifacts", .get k!"generatedArtifacts") /- 768 -/,
      (k!"createGeneratedArtifact", .other) /- 778 -/,
      (k!"getHwElementRefs", .get k!"hwElementRefs") /- 794 -/,
      (k!"addHwElementRef", .add k!"hwElementRefs" true false) /- 804 -/,
      (k!"getLinkers", .get k!"linkers") /- 819 -/,
      (k!"createLinker", .other) /- 828 -/,
      (k!"getMcSupport", .get k!"mcSupport") /- 844 -/,
      (k!"setMcSupport", .set k!"mcSupport" true) /- 853 -/,
      (k!"getProgrammingLanguage", .get k!"programmingLanguage") /- 868 -/,
      (k!"setProgrammingLanguage", .set k!"programmingLanguage" true) /- 877 -/,
      (k!"getRequiredArtifacts", .get k!"requiredArtifacts") /- 892 -/,
      (k!"createRequiredArtifact", .other) /- 901 -/,
      (k!"getRequiredGeneratorTools", .get k!"requiredGeneratorTools") /- 917 -/,
      (k!"createRequiredGeneratorTool", .other) /- 927 -/,
      (k!"getResourceConsumption", .get k!"resourceConsumption") /- 943 -/,
      (k!"createResourceConsumption", .other) /- 953 -/,
      (k!"getSwcBswMappingRef", .get k!"swcBswMappingRef") /- 971 -/,
      (k!"setSwcBswMappingRef", .set k!"swcBswMappingRef" true) /- 981 -/,
      (k!"getSwVersion", .get k!"swVersion") /- 996 -/,
      (k!"setSwVersion", .set k!"swVersion" true) /- 1006 -/,
      (k!"getUsedCodeGenerator", .get k!"usedCodeGenerator") /- 1022 -/,
      (k!"setUsedCodeGenerator", .set k!"usedCodeGenerator" true) /- 1031 -/,
      (k!"getVendorId", .get k!"vendorId") /- 1046 -/,
      (k!"setVendorId", .set k!"vendorId" true) /- 1056 -/]⟩
    .nil)
   -- M2/AUTOSARTemplates/SystemTemplate/NetworkManagement.py:1352
   k!"J1939NmCluster" ⟨false, some (2, [.sup 2]),
     []⟩
   (.node .nil
    -- M2/AUTOSARTemplates/CommonStructure/MeasurementCalibrationSupport/__init__.py:1010
    k!"McDataInstance" ⟨false, some (2, [.sup 2, .field k!"arraySize" .none, .field k!"displayIdentifier" .none, .field k!"flatMapEntryRef" .none, .field k!"instanceInMemory" .none, .field k!"mcDataAccessDetails" .none, .field k!"mcDataAssignments" .nil, .field k!"resultingProperties" .none, .field k!"resultingRptSwPrototypingAccess" .none, .field k!"role" .none, .field k!"rptImplPolicy" .none, .field k!"subElements" .nil, .field k!"symbol" .none]),
     [(k!"getArraySize", .get k!"arraySize") /- 1090 -/,
      (k!"setArraySize", .set k!"arraySize" true) /- 1099 -/,
      (k!"getDisplayIdentifier", .get k!"displayIdentifier") /- 1114 -/,
      (k!"setDisplayIdentifier", .set k!"displayIdentifier" true) /- 1123 -/,
      (k!"getFlatMapEntryRef", .get k!"flatMapEntryRef") /- 1138 -/,
      (k!"setFlatMapEntryRef", .set k!"flatMapEntryRef" true) /- 1147 -/,
      (k!"getInstanceInMemory", .get k!"instanceInMemory") /- 1162 -/,
      (k!"setInstanceInMemory", .set k!"instanceInMemory" true) /- 1171 -/,
      (k!"getMcDataAccessDetails", .get k!"mcDataAccessDetails") /- 1186 -/,
      (k!"setMcDataAccessDetails", .set k!"mcDataAccessDetails" true) /- 1195 -/,
      (k!"addMcDataAssignment", .add k!"mcDataAssignments" true false) /- 1210 -/,
      (k!"getMcDataAssignments", .get k!"mcDataAssignments") /- 1225 -/,
      (k!"getResultingProperties", .get k!"resultingProperties") /- 1234 -/,
      (k!"setResultingProperties", .set k!"resultingProperties" true) /- 1243 -/,
      (k!"getResultingRptSwPrototypingAccess", .get k!"resultingRptSwPrototypingAccess") /- 1258 -/,
      (k!"setResultingRptSwPrototypingAccess", .set k!"resultingRptSwPrototypingAccess" true) /- 1267 -/,
      (k!"getRole", .get k!"role") /- 1282 -/,
      (k!"setRole", .set k!"role" true) /- 1291 -/,
      (k!"getRptImplPolicy", .get k!"rptImplPolicy") /- 1306 -/,
      (k!"setRptImplPolicy", .set k!"rptImplPolicy" true) /- 1315 -/,
      (k!"createSubElement", .other) /- 1330 -/,
      (k!"getSubElements", .get k!"subElements") /- 1348 -/,
      (k!"getSymbol", .get k!"symbol") /- 1357 -/,
      (k!"setSymbol", .set k!"symbol" true) /- 1366 -/]⟩
    .nil))))

def accTable32 : Bst (ClassAcc) :=
 (.node (.node (.node (.node (.node .nil
     -- M2/MSR/Documentation/Chapters.py:540
     k!"MsrQueryTopic1" ⟨false, some (0, [.sup 0, .field k!"msrQueryProps" .none]),
     [(k!"setMsrQueryProps", .set k!"msrQueryProps" true) /- 564 -/,
      (k!"getMsrQueryProps", .get k!"msrQueryProps") /- 577 -/]⟩
     .nil)
    -- M2/AUTOSARTemplates/SWComponentTemplate/Components/__init__.py:392
    k!"PPortPrototype" ⟨false, some (2, [.sup 2, .field k!"providedInterfaceTRef" .none]),
     [(k!"getProvidedInterfaceTRef", .get k!"providedInterfaceTRef") /- 403 -/,
      (k!"setProvidedInterfaceTRef", .set k!"providedInterfaceTRef" false) /- 406 -/]⟩
    .nil)
   -- M2/AUTOSARTemplates/SWComponentTemplate/Components/__init__.py:411
   k!"RPortPrototype" ⟨false, some (2, [.sup 2, .field k!"mayBeUnconnected" .none, .field k!"requiredInterfaceTRef" .none]),
     [(k!"getMayBeUnconnected", .get k!"mayBeUnconnected") /- 425 -/,
      (k!"setMayBeUnconnected", .set k!"mayBeUnconnected" false) /- 428 -/,
      (k!"getRequiredInterfaceTRef", .get k!"requiredInterfaceTRef") /- 432 -/,
      (k!"setRequiredInterfaceTRef", .set k!"requiredInterfaceTRef" false) /- 435 -/]⟩
   (.node .nil
    -- M2/AUTOSARTemplates/SystemTemplate/Fibex/Fibex4Lin/LinCommunication.py:79
    k!"ResumePosition" ⟨false, some (0, [.sup 1]),
     []⟩
    .nil))
  -- M2/AUTOSARTemplates/CommonStructure/MeasurementCalibrationSupport/RptSupport/__init__.py:892
  k!"RptSupportData" ⟨false, some (0, [.sup 0, .field k!"executionContexts" .nil, .field k!"rptComponents" .nil, .field k!"rptServicePoints" .nil]),
     [(k!"createExecutionContext", .other) /- 923 -/,
      (k!"getExecutionContexts", .get k!"executionContexts") /- 941 -/,
      (k!"createRptComponent", .other) /- 950 -/,
      (k!"getRptComponents", .get k!"rptComponents") /- 968 -/,
      (k!"createRptServicePoint", .other) /- 977 -/,
      (k!"getRptServicePoints", .get k!"rptServicePoints") /- 995 -/]⟩
  (.node (.node .nil
    -- M2/AUTOSARTemplates/CommonStructure/FlatMap.py:407
    k!"RtePluginProps" ⟨false, some (0, [.sup 0, .field k!"pluginName" .none, .field k!"pluginVersion" .none]),
     [(k!"getPluginName", .get k!"pluginName") /- 428 -/,
      (k!"setPluginName", .set k!"pluginName" false) /- 431 -/,
      (k!"getPluginVersion", .get k!"pluginVersion") /- 435 -/,
      (k!"setPluginVersion", .set k!"pluginVersion" false) /- 438 -/]⟩
    .nil)
   -- M2/AUTOSARTemplates/SWComponentTemplate/SwcInternalBehavior/__init__.py:104
   k!"RunnableEntity" ⟨false, some (2, [.sup 2, .field k!"arguments" .nil, .field k!"asynchronousServerCallResultPoints" .nil, .field k!"canBeInvokedConcurrently" .none, .field k!"dataReadAccesses" .nil, .field k!"dataReceivePointByArguments" .nil, .field k!"dataReceivePointByValues" .nil, .field k!"dataSendPoints" .nil, .field k!"dataWriteAccesses" .nil, .field k!"externalTriggeringPoints" .nil, .field k!"internalTriggeringPoints" .nil, .field k!"modeAccessPoints" .nil, .field k!"modeSwitchPoints" .nil, .field k!"parameterAccesses" .nil, .field k!"readLocalVariables" .nil, .field k!"serverCallPoints" .nil, .field k!"symbol" .none, .field k!"waitPoints" .nil, .field k!"writtenLocalVariables" .nil]),
     [(k!"_createVariableAccess", .other) /- 227 -/,
      (k!"getArguments", .get k!"arguments") /- 234 -/,
      (k!"addArgument", .add k!"arguments" true false) /- 243 -/,
      (k!"getCanBeInvokedConcurrently", .get k!"canBeInvokedConcurrently") /- 258 -/,
      (k!"setCanBeInvokedConcurrently", .set k!"canBeInvokedConcurrently" true) /- 268 -/,
      (k!"createDataReadAccess", .other) /- 284 -/,
      (k!"getDataReadAccesses", .other) /- 297 -/,
      (k!"createDataWriteAccess", .other) /- 307 -/,
      (k!"getDataWriteAccesses", .other) /- 320 -/,
      (k!"createDataReceivePointByArgument", .other) /- 330 -/,
      (k!"getDataReceivePointByArguments", .other) /- 344 -/,
      (k!"createDataReceivePointByValue", .other) /- 355 -/,
      (k!"getDataReceivePointByValues", .other) /- 369 -/,
      (k!"createDataSendPoint", .other) /- 380 -/,
      (k!"getDataSendPoints", .get k!"dataSendPoints") /- 393 -/,
      (k!"createReadLocalVariable", .other) /- 403 -/,
      (k!"getReadLocalVariables", .get k!"readLocalVariables") /- 416 -/,
      (k!"createWrittenLocalVariable", .other) /- 426 -/,
      (k!"getWrittenLocalVariables", .get k!"writtenLocalVariables") /- 439 -/,
      (k!"getParameterAccesses", .other) /- 449 -/,
      (k!"createParameterAccess", .other) /- 459 -/,
      (k!"createSynchronousServerCallPoint", .other) /- 475 -/,
      (k!"createAsynchronousServerCallPoint", .other) /- 491 -/,
      (k!"createAsynchronousServerCallResultPoint", .other) /- 507 -/,
      (k!"getSynchronousServerCallPoint", .other) /- 523 -/,
      (k!"getAsynchronousServerCallPoint", .other) /- 533 -/,
      (k!"getAsynchronousServerCallResultPoints", .other) /- 543 -/,
      (k!"getServerCallPoints", .other) /- 553 -/,
      (k!"createInternalTriggeringPoint", .other) /- 563 -/,
      (k!"getInternalTriggeringPoints", .other) /- 578 -/,
      (k!"getExternalTriggeringPoints", .get k!"externalTriggeringPoints") /- 587 -/,
      (k!"addExternalTriggeringPoint", .add k!"externalTriggeringPoints" true false) /- 596 -/,
      (k!"getModeAccessPoints", .get k!"modeAccessPoints") /- 611 -/,
      (k!"addModeAccessPoint", .add k!"modeAccessPoints" true false) /- 621 -/,
      (k!"getModeSwitchPoints", .other) /- 637 -/,
      (k!"createModeSwitchPoint", .other) /- 647 -/,
      (k!"getSymbol", .get k!"symbol") /- 664 -/,
      (k!"setSymbol", .set k!"symbol" true) /- 673 -/,
      (k!"createWaitPoint", .other) /- 688 -/,
      (k!"getWaitPoints", .get k!"waitPoints") /- 704 -/]⟩
   (.node .nil
    -- M2/AUTOSARTemplates/SystemTemplate/Fibex/Fibex4Ethernet/EthernetTopology.py:870
    k!"SdClientConfig" ⟨false, some (0, [.sup 0, .field k!"capabilityRecord" .none, .field k!"clientServiceMajorVersion" .none, .field k!"clientServiceMinorVersion" .none, .field k!"initialFindBehavior" .none, .field k!"requestResponseDelay" .none, .field k!"ttl" .none]),
     [(k!"getClientServiceMajorVersion", .get k!"clientServiceMajorVersion") /- 900 -/,
      (k!"setClientServiceMajorVersion", .set k!"clientServiceMajorVersion" true) /- 903 -/,
      (k!"getClientServiceMinorVersion", .get k!"clientServiceMinorVersion") /- 908 -/,
      (k!"setClientServiceMinorVersion", .set k!"clientServiceMinorVersion" true) /- 911 -/,
      (k!"getInitialFindBehavior", .get k!"initialFindBehavior") /- 916 -/,
      (k!"setInitialFindBehavior", .set k!"initialFindBehavior" true) /- 919 -/,
      (k!"getRequestResponseDelay", .get k!"requestResponseDelay") /- 924 -/,
      (k!"setRequestResponseDelay", .set k!"requestResponseDelay" true) /- 927 -/,
      (k!"getTtl", .get k!"ttl") /- 932 -/,
      (k!"setTtl", .set k!"ttl" true) /- 935 -/]⟩
    .nil)))
 -- M2/AUTOSARTemplates/SystemTemplate/Fibex/Fibex4Ethernet/ServiceInstances.py:644
 k!"SdServerConfig" ⟨false, some (0, [.sup 0, .field k!"capabilityRecords" .nil, .field k!"initialOfferBehavior" .none, .field k!"offerCyclicDelay" .none, .field k!"requestResponseDelay" .none, .field k!"serverServiceMajorVersion" .none, .field k!"serverServiceMinorVersion" .none, .field k!"ttl" .none]),
     [(k!"getCapabilityRecords", .get k!"capabilityRecords") /- 679 -/,
      (k!"setCapabilityRecords", .set k!"capabilityRecords" true) /- 682 -/,
      (k!"getInitialOfferBehavior", .get k!"initialOfferBehavior") /- 687 -/,
      (k!"setInitialOfferBehavior", .set k!"initialOfferBehavior" true) /- 690 -/,
      (k!"getOfferCyclicDelay", .get k!"offerCyclicDelay") /- 695 -/,
      (k!"setOfferCyclicDelay", .set k!"offerCyclicDelay" true) /- 698 -/,
      (k!"getRequestResponseDelay", .get k!"requestResponseDelay") /- 703 -/,
      (k!"setRequestResponseDelay", .set k!"requestResponseDelay" true) /- 706 -/,
      (k!"getServerServiceMajorVersion", .get k!"serverServiceMajorVersion") /- 711 -/,
      (k!"setServerServiceMajorVersion", .set k!"serverServiceMajorVersion" true) /- 714 -/,
      (k!"getServerServiceMinorVersion", .get k!"serverServiceMinorVersion") /- 719 -/,
      (k!"setServerServiceMinorVersion", .set k!"serverServiceMinorVersion" true) /- 722 -/,
      (k!"getTtl", .get k!"ttl") /- 727 -/,
      (k!"setTtl", .set k!"ttl" true) /- 730 -/]⟩
 (.node (.node (.node .nil
    -- M2/MSR/DataDictionary/DataDefProperties.py:415
    k!"SwDataDefProps" ⟨false, some (0, [.sup 0, .field k!"displayPresentation" .none, .field k!"stepSize" .none, .field k!"swValueBlockSizeMults" .nil, .field k!"annotations" .nil, .field k!"swAddrMethodRef" .none, .field k!"swAlignment" .none, .field k!"baseTypeRef" .none, .field k!"swBitRepresentation" .none, .field k!"swCalibrationAccess" .none, .field k!"swValueBlockSize" .none, .field k!"swCalprmAxisSet" .none, .field k!"swTextProps" .none, .field k!"swComparisonVariables" .nil, .field k!"compuMethodRef" .none, .field k!"dataConstrRef" .none, .field k!"swDataDependency" .none, .field k!"displayFormat" .none, .field k!"implementationDataTypeRef" .none, .field k!"swHostVariable" .none, .field k!"swImplPolicy" .none, .field k!"additionalNativeTypeQualifier" .none, .field k!"swIntendedResolution" .none, .field k!"swInterpolationMethod" .none, .field k!"invalidValue" .none, .field k!"swIsVirtual" .none, .field k!"swPointerTargetProps" .none, .field k!"swRecordLayoutRef" .none, .field k!"swRefreshTiming" .none, .field k!"unitRef" .none, .field k!"valueAxisDataTypeRef" .none]),
     [(k!"getDisplayPresentation", .get k!"displayPresentation") /- 579 -/,
      (k!"setDisplayPresentation", .set k!"displayPresentation" true) /- 585 -/,
      (k!"getStepSize", .get k!"stepSize") /- 593 -/,
      (k!"setStepSize", .set k!"stepSize" true) /- 599 -/,
      (k!"getSwValueBlockSizeMults", .get k!"swValueBlockSizeMults") /- 607 -/,
      (k!"addSwValueBlockSizeMult", .add k!"swValueBlockSizeMults" true false) /- 613 -/,
      (k!"getAnnotations", .get k!"annotations") /- 621 -/,
      (k!"addAnnotation", .add k!"annotations" true false) /- 627 -/,
      (k!"getSwAddrMethodRef", .get k!"swAddrMethodRef") /- 635 -/,
      (k!"setSwAddrMethodRef", .set k!"swAddrMethodRef" true) /- 641 -/,
      (k!"getSwAlignment", .get k!"swAlignment") /- 649 -/,
      (k!"setSwAlignment", .set k!"swAlignment" true) /- 655 -/,
      (k!"getBaseTypeRef", .get k!"baseTypeRef") /- 663 -/,
      (k!"setBaseTypeRef", .set k!"baseTypeRef" true) /- 669 -/,
      (k!"getSwBitRepresentation", .get k!"swBitRepresentation") /- 677 -/,
      (k!"setSwBitRepresentation", .set k!"swBitRepresentation" true) /- 683 -/,
      (k!"getSwCalibrationAccess", .get k!"swCalibrationAccess") /- 691 -/,
      (k!"setSwCalibrationAccess", .set k!"swCalibrationAccess" true) /- 697 -/,
      (k!"getSwValueBlockSize", .get k!"swValueBlockSize") /- 705 -/,
      (k!"setSwValueBlockSize", .set k!"swValueBlockSize" true) /- 711 -/,
      (k!"getSwCalprmAxisSet", .get k!"swCalprmAxisSet") /- 719 -/,
      (k!"setSwCalprmAxisSet", .set k!"swCalprmAxisSet" true) /- 725 -/,
      (k!"getSwTextProps", .get k!"swTextProps") /- 733 -/,
      (k!"setSwTextProps", .set k!"swTextProps" true) /- 739 -/,
      (k!"getSwComparisonVariables", .get k!"swComparisonVariables") /- 747 -/,
      (k!"addSwComparisonVariable", .add k!"swComparisonVariables" true false) /- 753 -/,
      (k!"getCompuMethodRef", .get k!"compuMethodRef") /- 761 -/,
      (k!"setCompuMethodRef", .set k!"compuMethodRef" true) /- 767 -/,
      (k!"getDataConstrRef", .get k!"dataConstrRef") /- 775 -/,
      (k!"setDataConstrRef", .set k!"dataConstrRef" true) /- 781 -/,
      (k!"getSwDataDependency", .get k!"swDataDependency") /- 789 -/,
      (k!"setSwDataDependency", .set k!"swDataDependency" true) /- 795 -/,
      (k!"getDisplayFormat", .get k!"displayFormat") /- 803 -/,
      (k!"setDisplayFormat", .set k!"displayFormat" true) /- 809 -/,
      (k!"getImplementationDataTypeRef", .get k!"implementationDataTypeRef") /- 817 -/,
      (k!"setImplementationDataTypeRef", .set k!"implementationDataTypeRef" true) /- 823 -/,
      (k!"getSwHostVariable", .get k!"swHostVariable") /- 831 -/,
      (k!"setSwHostVariable", .set k!"swHostVariable" true) /- 837 -/,
      (k!"getSwImplPolicy", .get k!"swImplPolicy") /- 845 -/,
      (k!"setSwImplPolicy", .set k!"swImplPolicy" true) /- 851 -/,
      (k!"getAdditionalNativeTypeQualifier", .get k!"additionalNativeTypeQualifier") /- 859 -/,
      (k!"setAdditionalNativeTypeQualifier", .set k!"additionalNativeTypeQualifier" true) /- 865 -/,
      (k!"getSwIntendedResolution", .get k!"swIntendedResolution") /- 873 -/,
      (k!"setSwIntendedResolution", .set k!"swIntendedResolution" true) /- 879 -/,
      (k!"getSwInterpolationMethod", .get k!"swInterpolationMethod") /- 887 -/,
      (k!"setSwInterpolationMethod", .set k!"swInterpolationMethod" true) /- 893 -/,
      (k!"getInvalidValue", .get k!"invalidValue") /- 901 -/,
      (k!"setInvalidValue", .set k!"invalidValue" true) /- 907 -/,
      (k!"getSwIsVirtual", .get k!"swIsVirtual") /- 915 -/,
      (k!"setSwIsVirtual", .set k!"swIsVirtual" true) /- 921 -/,
      (k!"getSwPointerTargetProps", .get k!"swPointerTargetProps") /- 929 -/,
      (k!"setSwPointerTargetProps", .set k!"swPointerTargetProps" true) /- 935 -/,
      (k!"getSwRecordLayoutRef", .get k!"swRecordLayoutRef") /- 943 -/,
      (k!"setSwRecordLayoutRef", .set k!"swRecordLayoutRef" true) /- 949 -/,
      (k!"getSwRefreshTiming", .get k!"swRefreshTiming") /- 957 -/,
      (k!"setSwRefreshTiming", .set k!"swRefreshTiming" true) /- 963 -/,
      (k!"getUnitRef", .get k!"unitRef") /- 971 -/,
      (k!"setUnitRef", .set k!"unitRef" true) /- 977 -/,
      (k!"getValueAxisDataTypeRef", .get k!"valueAxisDataTypeRef") /- 985 -/,
      (k!"setValueAxisDataTypeRef", .set k!"valueAxisDataTypeRef" true) /- 991 -/]⟩
    .nil)
   -- M2/MSR/DataDictionary/RecordLayout.py:286
   k!"SwRecordLayout" ⟨false, some (2, [.sup 2, .field k!"swRecordLayoutGroup" .none]),
     [(k!"getSwRecordLayoutGroup", .get k!"swRecordLayoutGroup") /- 302 -/,
      (k!"setSwRecordLayoutGroup", .set k!"swRecordLayoutGroup" false) /- 305 -/]⟩
   (.node .nil
    -- M2/AUTOSARTemplates/CommonStructure/Timing/TimingClock/TDLETZoneClock.py:5
    k!"TDLETZoneClock" ⟨false, some (0, [.sup 0, .field k!"clockRef" .none, .field k!"zoneRef" .none]),
     [(k!"getClockRef", .get k!"clockRef") /- 26 -/,
      (k!"setClockRef", .set k!"clockRef" false) /- 35 -/,
      (k!"getZoneRef", .get k!"zoneRef") /- 48 -/,
      (k!"setZoneRef", .set k!"zoneRef" false) /- 57 -/]⟩
    .nil))
  -- M2/AUTOSARTemplates/CommonStructure/ServiceNeeds.py:4459
  k!"TransientFault" ⟨false, some (2, [.sup 2, .field k!"possibleErrorReactions" .nil]),
     [(k!"createPossibleErrorReaction", .other) /- 4484 -/,
      (k!"getPossibleErrorReactions", .get k!"possibleErrorReactions") /- 4500 -/]⟩
  (.node (.node .nil
    -- M2/AUTOSARTemplates/CommonStructure/TriggerDeclaration.py:90
    k!"TriggerMapping" ⟨false, some (0, [.sup 0, .field k!"firstTriggerRef" .none, .field k!"secondTriggerRef" .none]),
     [(k!"getFirstTriggerRef", .get k!"firstTriggerRef") /- 114 -/,
      (k!"setFirstTriggerRef", .set k!"firstTriggerRef" true) /- 123 -/,
      (k!"getSecondTriggerRef", .get k!"secondTriggerRef") /- 138 -/,
      (k!"setSecondTriggerRef", .set k!"secondTriggerRef" true) /- 147 -/]⟩
    .nil)
   -- M2/AUTOSARTemplates/SystemTemplate/Fibex/FibexCore/CoreCommunication.py:2083
   k!"UserDefinedPdu" ⟨false, some (2, [.sup 2, .field k!"cddType" .none]),
     [(k!"getCddType", .get k!"cddType") /- 2108 -/,
      (k!"setCddType", .set k!"cddType" false) /- 2111 -/]⟩
   (.node .nil
    -- M2/AUTOSARTemplates/SWComponentTemplate/SwcInternalBehavior/DataElements.py:79
    k!"VariableAccess" ⟨false, some (2, [.sup 2, .field k!"accessedVariableRef" .none, .field k!"scope" .none]),
     [(k!"getAccessedVariableRef", .get k!"accessedVariableRef") /- 102 -/,
      (k!"setAccessedVariableRef", .set k!"accessedVariableRef" true) /- 113 -/,
      (k!"getScope", .get k!"scope") /- 130 -/,
      (k!"setScope", .set k!"scope" true) /- 141 -/]⟩
    .nil))))

-- M2/AUTOSARTemplates/CommonStructure/ModeDeclaration.py:537
def accTable33 : Bst (ClassAcc) :=
 .node accTable31 k!"ModeTransition" ⟨false, some (2, [.sup 2, .field k!"enteredModeRef" .none, .field k!"exitedModeRef" .none]),
     [(k!"getEnteredModeRef", .get k!"enteredModeRef") /- 561 -/,
      (k!"setEnteredModeRef", .set k!"enteredModeRef" true) /- 570 -/,
      (k!"getExitedModeRef", .get k!"exitedModeRef") /- 585 -/,
      (k!"setExitedModeRef", .set k!"exitedModeRef" true) /- 594 -/]⟩ accTable32

def accTable34 : Bst (ClassAcc) :=
 (.node (.node (.node (.node (.node .nil
     -- M2/AUTOSARTemplates/GenericStructure/GeneralTemplateClasses/PrimitiveTypes.py:1350
     k!"VerbatimString" ⟨false, some (0, [.sup 0]),
     []⟩
     .nil)
    -- M2/AUTOSARTemplates/SystemTemplate/Fibex/Fibex4Ethernet/EthernetTopology.py:372
    k!"VlanMembership" ⟨false, some (0, [.sup 0, .field k!"defaultPriority" .none, .field k!"dhcpAddressAssignment" .none, .field k!"sendActivity" .none, .field k!"vlanRef" .none]),
     [(k!"getDefaultPriority", .get k!"defaultPriority") /- 398 -/,
      (k!"setDefaultPriority", .set k!"defaultPriority" true) /- 401 -/,
      (k!"getDhcpAddressAssignment", .get k!"dhcpAddressAssignment") /- 406 -/,
      (k!"setDhcpAddressAssignment", .set k!"dhcpAddressAssignment" true) /- 409 -/,
      (k!"getSendActivity", .get k!"sendActivity") /- 414 -/,
      (k!"setSendActivity", .set k!"sendActivity" true) /- 417 -/,
      (k!"getVlanRef", .get k!"vlanRef") /- 422 -/,
      (k!"setVlanRef", .set k!"vlanRef" true) /- 425 -/]⟩
    .nil)
   -- M2/AUTOSARTemplates/AutosarTopLevelStructure/__init__.py:50
   k!"AbstractAUTOSAR" ⟨false, some (0, [.sup 0, .field k!"release_xsd_mappings" .other, .base k!"CollectableElement" 0, .field k!"schema_location" .none, .field k!"_appl_impl_type_maps" .other, .field k!"_impl_appl_type_maps" .other, .field k!"_behavior_impl_maps" .other, .field k!"_impl_behavior_maps" .other, .field k!"uuid_mgr" .other, .field k!"systems" .other, .field k!"compositionSwComponentTypes" .other, .field k!"rootSwCompositionPrototype" .none, .field k!"adminData" .none, .field k!"arPackages" .other, .field k!"fileInfoComment" .none, .field k!"introduction" .none]),
     [(k!"getAdminData", .get k!"adminData") /- 123 -/,
      (k!"setAdminData", .set k!"adminData" true) /- 126 -/,
      (k!"removeAdminData", .other) /- 131 -/,
      (k!"getFileInfoComment", .get k!"fileInfoComment") /- 134 -/,
      (k!"setFileInfoComment", .set k!"fileInfoComment" false) /- 137 -/,
      (k!"getIntroduction", .get k!"introduction") /- 141 -/,
      (k!"setIntroduction", .set k!"introduction" false) /- 144 -/,
      (k!"reload", .other) /- 148 -/,
      (k!"clear", .other) /- 155 -/,
      (k!"getElement", .other) /- 177 -/,
      (k!"getARPackages", .other) /- 182 -/,
      (k!"createARPackage", .other) /- 185 -/,
      (k!"find", .other) /- 191 -/,
      (k!"getDestType", .other) /- 216 -/,
      (k!"findAtomicSwComponentType", .other) /- 240 -/,
      (k!"findSystemSignal", .other) /- 243 -/,
      (k!"findSystemSignalGroup", .other) /- 246 -/,
      (k!"findPort", .other) /- 249 -/,
      (k!"findVariableDataPrototype", .other) /- 252 -/,
      (k!"findImplementationDataType", .other) /- 255 -/,
      (k!"getDataType", .other) /- 258 -/,
      (k!"addDataTypeMap", .other) /- 271 -/,
      (k!"convertToImplementationDataType", .other) /- 277 -/,
      (k!"convertToApplicationDataType", .other) /- 283 -/,
      (k!"getRootSwCompositionPrototype", .get k!"rootSwCompositionPrototype") /- 289 -/,
      (k!"setRootSwCompositionPrototype", .other) /- 292 -/,
      (k!"addImplementationBehaviorMap", .other) /- 301 -/,
      (k!"getBehavior", .other) /- 305 -/,
      (k!"getImplementation", .other) /- 310 -/,
      (k!"addSystem", .other) /- 315 -/,
      (k!"getSystems", .other) /- 320 -/,
      (k!"getCompositionSwComponentTypes", .get k!"compositionSwComponentTypes") /- 323 -/,
      (k!"getCompositionSwComponentType", .other) /- 326 -/,
      (k!"addCompositionSwComponentType", .other) /- 329 -/,
      (k!"getARObjectByUUID", .other) /- 336 -/,
      (k!"addARObject", .other) /- 339 -/,
      (k!"getDuplicateUUIDs", .other) /- 344 -/,
      (k!"setARRelease", .other) /- 347 -/]⟩
   (.node .nil
    -- M2/AUTOSARTemplates/GenericStructure/GeneralTemplateClasses/Enumerations.py:11
    k!"AutoCollectEnum" ⟨false, none,
     []⟩
    .nil))
  -- M2/AUTOSARTemplates/SWComponentTemplate/Datatype/Datatypes.py:18
  k!"AutosarDataType" ⟨true, some (2, [.guard k!"AutosarDataType", .sup 2, .field k!"swDataDefProps" .none]),
     [(k!"getSwDataDefProps", .get k!"swDataDefProps") /- 37 -/,
      (k!"setSwDataDefProps", .set k!"swDataDefProps" false) /- 40 -/]⟩
  (.node (.node .nil
    -- M2/AUTOSARTemplates/SWComponentTemplate/SwcInternalBehavior/RTEEvents.py:504
    k!"BackgroundEvent" ⟨false, some (2, [.sup 2]),
     []⟩
    .nil)
   -- M2/AUTOSARTemplates/GenericStructure/GeneralTemplateClasses/Enumerations.py:26
   k!"BindingTimeEnum" ⟨false, some (0, [.sup 1]),
     []⟩
   (.node .nil
    -- M2/AUTOSARTemplates/BswModuleTemplate/BswBehavior/__init__.py:714
    k!"BswCalledEntity" ⟨false, some (2, [.sup 2]),
     []⟩
    .nil)))
 -- M2/AUTOSARTemplates/BswModuleTemplate/BswBehavior/__init__.py:408
 k!"BswModuleEntity" ⟨true, some (2, [.guard k!"BswModuleEntity", .sup 2, .field k!"accessedModeGroupRefs" .nil, .field k!"activationPointRefs" .nil, .field k!"callPoints" .nil, .field k!"dataReceivePoints" .nil, .field k!"dataSendPoints" .nil, .field k!"implementedEntryRef" .none, .field k!"issuedTriggerRefs" .nil, .field k!"managedModeGroupRefs" .nil, .field k!"schedulerNamePrefixRef" .none]),
     [(k!"getAccessedModeGroupRefs", .get k!"accessedModeGroupRefs") /- 470 -/,
      (k!"addAccessedModeGroupRef", .add k!"accessedModeGroupRefs" true false) /- 479 -/,
      (k!"getActivationPointRefs", .get k!"activationPointRefs") /- 494 -/,
      (k!"addActivationPointRef", .add k!"activationPointRefs" true false) /- 503 -/,
      (k!"getCallPoints", .get k!"callPoints") /- 518 -/,
      (k!"createBswAsynchronousServerCallPoint", .other) /- 527 -/,
      (k!"createBswSynchronousServerCallPoint", .other) /- 545 -/,
      (k!"getDataReceivePoints", .get k!"dataReceivePoints") /- 563 -/,
      (k!"createDataReceivePoint", .other) /- 572 -/,
      (k!"getDataSendPoints", .get k!"dataSendPoints") /- 590 -/,
      (k!"createDataSendPoint", .other) /- 599 -/,
      (k!"getImplementedEntryRef", .get k!"implementedEntryRef") /- 617 -/,
      (k!"setImplementedEntryRef", .set k!"implementedEntryRef" true) /- 626 -/,
      (k!"getIssuedTriggerRefs", .get k!"issuedTriggerRefs") /- 641 -/,
      (k!"addIssuedTriggerRef", .add k!"issuedTriggerRefs" true false) /- 650 -/,
      (k!"getManagedModeGroupRefs", .get k!"managedModeGroupRefs") /- 665 -/,
      (k!"addManagedModeGroupRef", .add k!"managedModeGroupRefs" true false) /- 674 -/,
      (k!"getSchedulerNamePrefixRef", .get k!"schedulerNamePrefixRef") /- 689 -/,
      (k!"setSchedulerNamePrefixRef", .set k!"schedulerNamePrefixRef" true) /- 698 -/]⟩
 (.node (.node (.node .nil
    -- M2/AUTOSARTemplates/SystemTemplate/TransportProtocols.py:159
    k!"CanTpConnection" ⟨false, some (0, [.sup 0, .field k!"addressingFormat" .none, .field k!"cancellation" .none, .field k!"canTpChannelRef" .none, .field k!"dataPduRef" .none, .field k!"flowControlPduRef" .none, .field k!"maxBlockSize" .none, .field k!"multicastRef" .none, .field k!"paddingActivation" .none, .field k!"receiverRefs" .nil, .field k!"taType" .none, .field k!"timeoutBr" .none, .field k!"timeoutBs" .none, .field k!"timeoutCr" .none, .field k!"timeoutCs" .none, .field k!"tpSduRef" .none, .field k!"transmitterRef" .none]),
     [(k!"getAddressingFormat", .get k!"addressingFormat") /- 221 -/,
      (k!"setAddressingFormat", .set k!"addressingFormat" true) /- 224 -/,
      (k!"getCancellation", .get k!"cancellation") /- 229 -/,
      (k!"setCancellation", .set k!"cancellation" true) /- 232 -/,
      (k!"getCanTpChannelRef", .get k!"canTpChannelRef") /- 237 -/,
      (k!"setCanTpChannelRef", .set k!"canTpChannelRef" true) /- 240 -/,
      (k!"getDataPduRef", .get k!"dataPduRef") /- 245 -/,
      (k!"setDataPduRef", .set k!"dataPduRef" true) /- 248 -/,
      (k!"getFlowControlPduRef", .get k!"flowControlPduRef") /- 253 -/,
      (k!"setFlowControlPduRef", .set k!"flowControlPduRef" true) /- 256 -/,
      (k!"getMaxBlockSize", .get k!"maxBlockSize") /- 261 -/,
      (k!"setMaxBlockSize", .set k!"maxBlockSize" true) /- 264 -/,
      (k!"getMulticastRef", .get k!"multicastRef") /- 269 -/,
      (k!"setMulticastRef", .set k!"multicastRef" true) /- 272 -/,
      (k!"getPaddingActivation", .get k!"paddingActivation") /- 277 -/,
      (k!"setPaddingActivation", .set k!"paddingActivation" true) /- 280 -/,
      (k!"getReceiverRefs", .get k!"receiverRefs") /- 285 -/,
      (k!"addReceiverRef", .add k!"receiverRefs" true false) /- 288 -/,
      (k!"getTaType", .get k!"taType") /- 293 -/,
      (k!"setTaType", .set k!"taType" true) /- 296 -/,
      (k!"getTimeoutBr", .get k!"timeoutBr") /- 301 -/,
      (k!"setTimeoutBr", .set k!"timeoutBr" true) /- 304 -/,
      (k!"getTimeoutBs", .get k!"timeoutBs") /- 309 -/,
      (k!"setTimeoutBs", .set k!"timeoutBs" true) /- 312 -/,
      (k!"getTimeoutCr", .get k!"timeoutCr") /- 317 -/,
      (k!"setTimeoutCr", .set k!"timeoutCr" true) /- 320 -/,
      (k!"getTimeoutCs", .get k!"timeoutCs") /- 325 -/,
      (k!"setTimeoutCs", .set k!"timeoutCs" true) /- 328 -/,
      (k!"getTpSduRef", .get k!"tpSduRef") /- 333 -/,
      (k!"setTpSduRef", .set k!"tpSduRef" true) /- 336 -/,
      (k!"getTransmitterRef", .get k!"transmitterRef") /- 341 -/,
      (k!"setTransmitterRef", .set k!"transmitterRef" true) /- 344 -/]⟩
    .nil)
   -- M2/AUTOSARTemplates/CommonStructure/ServiceNeeds.py:2109
   k!"ComMgrUserNeeds" ⟨false, some (2, [.sup 2, .field k!"maxCommMode" .none]),
     [(k!"getMaxCommMode", .get k!"maxCommMode") /- 2134 -/,
      (k!"setMaxCommMode", .set k!"maxCommMode" true) /- 2143 -/]⟩
   (.node .nil
    -- M2/AUTOSARTemplates/SystemTemplate/Fibex/FibexCore/CoreTopology.py:72
    k!"CycleRepetition" ⟨false, some (0, [.sup 0, .field k!"BaseCycle" .none, .field k!"CycleRepetition" .none]),
     [(k!"getBaseCycle", .get k!"BaseCycle") /- 92 -/,
      (k!"setBaseCycle", .set k!"BaseCycle" true) /- 95 -/,
      (k!"getCycleRepetition", .get k!"CycleRepetition") /- 100 -/,
      (k!"setCycleRepetition", .set k!"CycleRepetition" true) /- 103 -/]⟩
    .nil))
  -- M2/AUTOSARTemplates/SystemTemplate/Fibex/Fibex4Ethernet/EthernetTopology.py:35
  k!"EthernetCluster" ⟨false, some (2, [.sup 2, .field k!"couplingPorts" .nil, .field k!"couplingPortStartupActiveTime" .none, .field k!"couplingPortSwitchoffDelay" .none, .field k!"macMulticastGroups" .nil]),
     [(k!"getCouplingPorts", .get k!"couplingPorts") /- 61 -/,
      (k!"addCouplingPort", .add k!"couplingPorts" true false) /- 64 -/,
      (k!"getCouplingPortStartupActiveTime", .get k!"couplingPortStartupActiveTime") /- 69 -/,
      (k!"setCouplingPortStartupActiveTime", .set k!"couplingPortStartupActiveTime" true) /- 72 -/,
      (k!"getCouplingPortSwitchoffDelay", .get k!"couplingPortSwitchoffDelay") /- 77 -/,
      (k!"setCouplingPortSwitchoffDelay", .set k!"couplingPortSwitchoffDelay" true) /- 80 -/,
      (k!"getMacMulticastGroups", .get k!"macMulticastGroups") /- 85 -/,
      (k!"createMacMulticastGroup", .other) /- 88 -/]⟩
  (.node (.node .nil
    -- M2/AUTOSARTemplates/AutosarTopLevelStructure/__init__.py:26
    k!"FileInfoComment" ⟨false, some (0, [.sup 0, .field k!"sdgs" .nil]),
     [(k!"getSdgs", .get k!"sdgs") /- 42 -/,
      (k!"setSdgs", .set k!"sdgs" false) /- 45 -/]⟩
    .nil)
   -- M2/AUTOSARTemplates/SystemTemplate/Fibex/FibexCore/CoreCommunication.py:1547
   k!"FrameTriggering" ⟨true, some (2, [.guard k!"FrameTriggering", .sup 2, .field k!"frameRef" .none, .field k!"framePortRefs" .nil, .field k!"pduTriggeringRefs" .nil]),
     [(k!"getFrameRef", .get k!"frameRef") /- 1573 -/,
      (k!"setFrameRef", .set k!"frameRef" false) /- 1576 -/,
      (k!"getFramePortRefs", .get k!"framePortRefs") /- 1580 -/,
      (k!"addFramePortRef", .add k!"framePortRefs" false false) /- 1583 -/,
      (k!"getPduTriggeringRefs", .get k!"pduTriggeringRefs") /- 1587 -/,
      (k!"addPduTriggeringRef", .add k!"pduTriggeringRefs" false false) /- 1590 -/]⟩
   (.node .nil
    -- M2/AUTOSARTemplates/SystemTemplate/Fibex/Fibex4Lin/LinCommunication.py:173
    k!"FreeFormatEntry" ⟨true, some (0, [.guard k!"FreeFormatEntry", .sup 0]),
     []⟩
    .nil))))

def accTable35 : Bst (ClassAcc) :=
 (.node (.node (.node (.node .nil
    -- M2/MSR/AsamHdo/Constraints/GlobalConstraints.py:18
    k!"InternalConstrs" ⟨false, some (0, [.sup 0, .field k!"lowerLimit" .none, .field k!"maxDiff" .none, .field k!"maxGradient" .none, .field k!"monotony" .none, .field k!"scaleConstrs" .nil, .field k!"upperLimit" .none]),
     [(k!"getLowerLimit", .get k!"lowerLimit") /- 62 -/,
      (k!"setLowerLimit", .set k!"lowerLimit" true) /- 68 -/,
      (k!"getMaxDiff", .get k!"maxDiff") /- 76 -/,
      (k!"setMaxDiff", .set k!"maxDiff" true) /- 82 -/,
      (k!"getMaxGradient", .get k!"maxGradient") /- 90 -/,
      (k!"setMaxGradient", .set k!"maxGradient" true) /- 96 -/,
      (k!"getMonotony", .get k!"monotony") /- 104 -/,
      (k!"setMonotony", .set k!"monotony" true) /- 110 -/,
      (k!"addScaleConstr", .add k!"scaleConstrs" true false) /- 118 -/,
      (k!"getScaleConstrs", .get k!"scaleConstrs") /- 126 -/,
      (k!"getUpperLimit", .get k!"upperLimit") /- 132 -/,
      (k!"setUpperLimit", .set k!"upperLimit" true) /- 138 -/]⟩
    .nil)
   -- M2/AUTOSARTemplates/GenericStructure/LifeCycles.py:15
   k!"LifeCyclePeriod" ⟨false, some (0, [.sup 0, .field k!"arReleaseVersion" .none, .field k!"date" .none, .field k!"productRelease" .none]),
     [(k!"getArReleaseVersion", .get k!"arReleaseVersion") /- 37 -/,
      (k!"setArReleaseVersion", .set k!"arReleaseVersion" true) /- 46 -/,
      (k!"getDate", .get k!"date") /- 61 -/,
      (k!"setDate", .set k!"date" true) /- 70 -/,
      (k!"getProductRelease", .get k!"productRelease") /- 85 -/,
      (k!"setProductRelease", .set k!"productRelease" true) /- 94 -/]⟩
   (.node .nil
    -- M2/AUTOSARTemplates/SystemTemplate/TransportProtocols.py:693
    k!"LinTpConnection" ⟨false, some (0, [.sup 0, .field k!"dataPduRef" .none, .field k!"flowControlRef" .none, .field k!"linTpNSduRef" .none, .field k!"multicastRef" .none, .field k!"receiverRefs" .nil, .field k!"timeoutAs" .none, .field k!"timeoutCr" .none, .field k!"timeoutCs" .none, .field k!"transmitterRef" .none]),
     [(k!"getDataPduRef", .get k!"dataPduRef") /- 734 -/,
      (k!"setDataPduRef", .set k!"dataPduRef" true) /- 737 -/,
      (k!"getFlowControlRef", .get k!"flowControlRef") /- 742 -/,
      (k!"setFlowControlRef", .set k!"flowControlRef" true) /- 745 -/,
      (k!"getLinTpNSduRef", .get k!"linTpNSduRef") /- 750 -/,
      (k!"setLinTpNSduRef", .set k!"linTpNSduRef" true) /- 753 -/,
      (k!"getMulticastRef", .get k!"multicastRef") /- 758 -/,
      (k!"setMulticastRef", .set k!"multicastRef" true) /- 761 -/,
      (k!"getReceiverRefs", .get k!"receiverRefs") /- 766 -/,
      (k!"addReceiverRef", .add k!"receiverRefs" true false) /- 769 -/,
      (k!"getTimeoutAs", .get k!"timeoutAs") /- 774 -/,
      (k!"setTimeoutAs", .set k!"timeoutAs" true) /- 777 -/,
      (k!"getTimeoutCr", .get k!"timeoutCr") /- 782 -/,
      (k!"setTimeoutCr", .set k!"timeoutCr" true) /- 785 -/,
      (k!"getTimeoutCs", .get k!"timeoutCs") /- 790 -/,
      (k!"setTimeoutCs", .set k!"timeoutCs" true) /- 793 -/,
      (k!"getTransmitterRef", .get k!"transmitterRef") /- 798 -/,
      (k!"setTransmitterRef", .set k!"transmitterRef" true) /- 801 -/]⟩
    .nil))
  -- M2/AUTOSARTemplates/CommonStructure/ServiceNeeds.py:3495
  k!"MaxCommModeEnum" ⟨false, some (0, [.sup 1]),
     []⟩
  (.node (.node .nil
    -- M2/AUTOSARTemplates/SWComponentTemplate/PortInterface/__init__.py:263
    k!"MetaDataItemSet" ⟨false, some (0, [.sup 0, .field k!"dataElementRefs" .nil, .field k!"metaDataItems" .nil]),
     [(k!"getDataElementRefs", .get k!"dataElementRefs") /- 277 -/,
      (k!"addDataElementRef", .add k!"dataElementRefs" false false) /- 280 -/,
      (k!"getMetaDataItems", .get k!"metaDataItems") /- 284 -/,
      (k!"addMetaDataItem", .add k!"metaDataItems" false false) /- 287 -/]⟩
    .nil)
   -- M2/AUTOSARTemplates/SWComponentTemplate/SwcInternalBehavior/ModeDeclarationGroup.py:15
   k!"ModeAccessPoint" ⟨false, some (0, [.sup 0, .field k!"ident" .none, .field k!"modeGroupIRef" .none]),
     [(k!"getIdent", .get k!"ident") /- 34 -/,
      (k!"setIdent", .set k!"ident" false) /- 43 -/,
      (k!"getModeGroupIRef", .get k!"modeGroupIRef") /- 56 -/,
      (k!"setModeGroupIRef", .set k!"modeGroupIRef" false) /- 65 -/]⟩
   (.node .nil
    -- M2/AUTOSARTemplates/CommonStructure/ModeDeclaration.py:151
    k!"ModeDeclaration" ⟨false, some (2, [.sup 2, .field k!"value" .none]),
     [(k!"getValue", .get k!"value") /- 170 -/,
      (k!"setValue", .set k!"value" true) /- 179 -/]⟩
    .nil)))
 -- M2/AUTOSARTemplates/SWComponentTemplate/SwcInternalBehavior/ModeDeclarationGroup.py:79
 k!"ModeSwitchPoint" ⟨false, some (2, [.sup 2, .field k!"modeGroupIRef" .none]),
     [(k!"getModeGroupIRef", .get k!"modeGroupIRef") /- 95 -/,
      (k!"setModeGroupIRef", .set k!"modeGroupIRef" false) /- 104 -/]⟩
 (.node (.node (.node .nil
    -- M2/MSR/Documentation/Chapters.py:493
    k!"MsrQueryChapter" ⟨false, some (0, [.sup 0, .field k!"msrQueryProps" .none]),
     [(k!"setMsrQueryProps", .set k!"msrQueryProps" true) /- 517 -/,
      (k!"getMsrQueryProps", .get k!"msrQueryProps") /- 530 -/]⟩
    .nil)
   -- M2/AUTOSARTemplates/SystemTemplate/Fibex/FibexCore/CoreCommunication.py:1905
   k!"MultiplexedIPdu" ⟨false, some (2, [.sup 2, .field k!"dynamicPart" .none, .field k!"selectorFieldByteOrder" .none, .field k!"selectorFieldLength" .none, .field k!"selectorFieldStartPosition" .none, .field k!"staticPart" .none, .field k!"triggerMode" .none, .field k!"unusedBitPattern" .none]),
     [(k!"getDynamicPart", .get k!"dynamicPart") /- 1940 -/,
      (k!"setDynamicPart", .set k!"dynamicPart" true) /- 1943 -/,
      (k!"getSelectorFieldByteOrder", .get k!"selectorFieldByteOrder") /- 1948 -/,
      (k!"setSelectorFieldByteOrder", .set k!"selectorFieldByteOrder" true) /- 1951 -/,
      (k!"getSelectorFieldLength", .get k!"selectorFieldLength") /- 1956 -/,
      (k!"setSelectorFieldLength", .set k!"selectorFieldLength" true) /- 1959 -/,
      (k!"getSelectorFieldStartPosition", .get k!"selectorFieldStartPosition") /- 1964 -/,
      (k!"setSelectorFieldStartPosition", .set k!"selectorFieldStartPosition" true) /- 1967 -/,
      (k!"getStaticPart", .get k!"staticPart") /- 1972 -/,
      (k!"setStaticPart", .set k!"staticPart" true) /- 1975 -/,
      (k!"getTriggerMode", .get k!"triggerMode") /- 1980 -/,
      (k!"setTriggerMode", .set k!"triggerMode" true) /- 1983 -/,
      (k!"getUnusedBitPattern", .get k!"unusedBitPattern") /- 1988 -/,
      (k!"setUnusedBitPattern", .set k!"unusedBitPattern" true) /- 1991 -/]⟩
   (.node .nil
    -- M2/AUTOSARTemplates/SystemTemplate/Fibex/FibexCore/CoreCommunication.py:1776
    k!"MultiplexedPart" ⟨true, some (0, [.guard k!"MultiplexedPart", .sup 0, .field k!"segmentPositions" .nil]),
     [(k!"getSegmentPositions", .get k!"segmentPositions") /- 1796 -/,
      (k!"addSegmentPosition", .add k!"segmentPositions" true false) /- 1799 -/]⟩
    .nil))
  -- M2/AUTOSARTemplates/SystemTemplate/Fibex/Fibex4Ethernet/NetworkEndpoint.py:422
  k!"NetworkEndpoint" ⟨false, some (2, [.sup 2, .field k!"fullyQualifiedDomainName" .none, .field k!"infrastructureServices" .none, .field k!"ipSecConfig" .none, .field k!"networkEndpointAddresses" .nil, .field k!"priority" .none]),
     [(k!"getFullyQualifiedDomainName", .get k!"fullyQualifiedDomainName") /- 451 -/,
      (k!"setFullyQualifiedDomainName", .set k!"fullyQualifiedDomainName" false) /- 454 -/,
      (k!"getInfrastructureServices", .get k!"infrastructureServices") /- 458 -/,
      (k!"setInfrastructureServices", .set k!"infrastructureServices" false) /- 461 -/,
      (k!"getIpSecConfig", .get k!"ipSecConfig") /- 465 -/,
      (k!"setIpSecConfig", .set k!"ipSecConfig" false) /- 468 -/,
      (k!"getNetworkEndpointAddresses", .get k!"networkEndpointAddresses") /- 472 -/,
      (k!"addNetworkEndpointAddress", .add k!"networkEndpointAddresses" false false) /- 475 -/,
      (k!"getPriority", .get k!"priority") /- 479 -/,
      (k!"setPriority", .set k!"priority" false) /- 482 -/]⟩
  (.node (.node .nil
    -- M2/AUTOSARTemplates/CommonStructure/Constants/__init__.py:802
    k!"NumericalOrText" ⟨false, some (0, [.sup 0, .field k!"vf" .none, .field k!"vt" .none]),
     [(k!"getVf", .get k!"vf") /- 831 -/,
      (k!"setVf", .set k!"vf" true) /- 841 -/,
      (k!"getVt", .get k!"vt") /- 857 -/,
      (k!"setVt", .set k!"vt" true) /- 866 -/]⟩
    .nil)
   -- M2/AUTOSARTemplates/SWComponentTemplate/PortInterface/__init__.py:133
   k!"NvDataInterface" ⟨false, some (2, [.sup 2]),
     [(k!"getNvDatas", .other) /- 163 -/,
      (k!"createNvData", .other) /- 172 -/,
      (k!"getNvData", .other) /- 179 -/]⟩
   (.node .nil
    -- M2/AUTOSARTemplates/SWComponentTemplate/Components/__init__.py:440
    k!"PRPortPrototype" ⟨false, some (2, [.sup 2, .field k!"providedComSpecs" .nil, .field k!"requiredComSpecs" .nil, .field k!"providedRequiredInterface" .none]),
     [(k!"getProvidedComSpecs", .get k!"providedComSpecs") /- 457 -/,
      (k!"addProvidedComSpec", .add k!"providedComSpecs" false false) /- 460 -/,
      (k!"getRequiredComSpecs", .get k!"requiredComSpecs") /- 464 -/,
      (k!"addRequiredComSpec", .add k!"requiredComSpecs" false false) /- 467 -/,
      (k!"getProvidedRequiredInterface", .get k!"providedRequiredInterface") /- 471 -/,
      (k!"setProvidedRequiredInterface", .set k!"providedRequiredInterface" false) /- 474 -/]⟩
    .nil))))

-- M2/AUTOSARTemplates/SystemTemplate/Fibex/FibexCore/CoreCommunication.py:1201
def accTable36 : Bst (ClassAcc) :=
 .node accTable34 k!"ISignalTypeEnum" ⟨false, some (0, [.sup 1]),
     []⟩ accTable35

-- M2/AUTOSARTemplates/GenericStructure/VariantHandling/__init__.py:434
def accTable37 : Bst (ClassAcc) :=
 .node accTable33 k!"VariationPoint" ⟨false, some (0, [.sup 0, .field k!"blueprintCondition" .none, .field k!"desc" .none, .field k!"formalBlueprintGenerator" .none, .field k!"postBuildVariantConditions" .nil, .field k!"sdg" .none, .field k!"shortLabel" .none, .field k!"swSyscond" .none]),
     [(k!"getBlueprintCondition", .get k!"blueprintCondition") /- 517 -/,
      (k!"setBlueprintCondition", .set k!"blueprintCondition" true) /- 525 -/,
      (k!"getDesc", .get k!"desc") /- 536 -/,
      (k!"setDesc", .set k!"desc" true) /- 542 -/,
      (k!"getFormalBlueprintGenerator", .get k!"formalBlueprintGenerator") /- 551 -/,
      (k!"setFormalBlueprintGenerator", .set k!"formalBlueprintGenerator" true) /- 559 -/,
      (k!"getPostBuildVariantConditions", .get k!"postBuildVariantConditions") /- 570 -/,
      (k!"addPostBuildVariantCondition", .add k!"postBuildVariantConditions" true false) /- 577 -/,
      (k!"getSdg", .get k!"sdg") /- 587 -/,
      (k!"setSdg", .set k!"sdg" true) /- 596 -/,
      (k!"getShortLabel", .get k!"shortLabel") /- 608 -/,
      (k!"setShortLabel", .set k!"shortLabel" true) /- 617 -/,
      (k!"getSwSyscond", .get k!"swSyscond") /- 629 -/,
      (k!"setSwSyscond", .set k!"swSyscond" true) /- 636 -/]⟩ accTable36

def accTable38 : Bst (ClassAcc) :=
 (.node (.node (.node (.node (.node .nil
     -- M2/AUTOSARTemplates/SystemTemplate/Fibex/FibexCore/CoreTopology.py:109
     k!"PhysicalChannel" ⟨true, some (2, [.guard k!"PhysicalChannel", .sup 2, .field k!"commConnectorRefs" .nil, .field k!"frameTriggerings" .nil, .field k!"managedPhysicalChannelRefs" .nil]),
     [(k!"getCommConnectorRefs", .get k!"commConnectorRefs") /- 142 -/,
      (k!"addCommConnectorRef", .add k!"commConnectorRefs" false false) /- 145 -/,
      (k!"getFrameTriggerings", .other) /- 149 -/,
      (k!"createCanFrameTriggering", .other) /- 152 -/,
      (k!"createLinFrameTriggering", .other) /- 159 -/,
      (k!"createFlexrayFrameTriggering", .other) /- 166 -/,
      (k!"getISignalTriggerings", .other) /- 173 -/,
      (k!"createISignalTriggering", .other) /- 176 -/,
      (k!"getManagedPhysicalChannelRefs", .get k!"managedPhysicalChannelRefs") /- 182 -/,
      (k!"addManagedPhysicalChannelRef", .add k!"managedPhysicalChannelRefs" false false) /- 185 -/,
      (k!"getPduTriggerings", .other) /- 189 -/,
      (k!"createPduTriggering", .other) /- 192 -/]⟩
     .nil)
    -- M2/AUTOSARTemplates/GenericStructure/GeneralTemplateClasses/PrimitiveTypes.py:663
    k!"PositiveInteger" ⟨false, some (0, [.sup 0]),
     []⟩
    .nil)
   -- M2/AUTOSARTemplates/SWComponentTemplate/Communication.py:905
   k!"ReceiverComSpec" ⟨true, some (0, [.guard k!"ReceiverComSpec", .sup 0, .field k!"compositeNetworkRepresentations" .nil, .field k!"dataElementRef" .none, .field k!"handleOutOfRange" .none, .field k!"handleOutOfRangeStatus" .none, .field k!"maxDeltaCounterInit" .none, .field k!"maxNoNewOrRepeatedData" .none, .field k!"networkRepresentation" .none, .field k!"receptionProps" .none, .field k!"replaceWith" .none, .field k!"syncCounterInit" .none, .field k!"transformationComSpecProps" .nil, .field k!"usesEndToEndProtection" .none]),
     [(k!"addCompositeNetworkRepresentation", .add k!"compositeNetworkRepresentations" true false) /- 981 -/,
      (k!"getCompositeNetworkRepresentations", .get k!"compositeNetworkRepresentations") /- 990 -/,
      (k!"getDataElementRef", .get k!"dataElementRef") /- 996 -/,
      (k!"setDataElementRef", .set k!"dataElementRef" true) /- 1002 -/,
      (k!"getHandleOutOfRange", .get k!"handleOutOfRange") /- 1011 -/,
      (k!"setHandleOutOfRange", .set k!"handleOutOfRange" true) /- 1017 -/,
      (k!"getHandleOutOfRangeStatus", .get k!"handleOutOfRangeStatus") /- 1026 -/,
      (k!"setHandleOutOfRangeStatus", .set k!"handleOutOfRangeStatus" true) /- 1032 -/,
      (k!"getMaxDeltaCounterInit", .get k!"maxDeltaCounterInit") /- 1041 -/,
      (k!"setMaxDeltaCounterInit", .set k!"maxDeltaCounterInit" true) /- 1047 -/,
      (k!"getMaxNoNewOrRepeatedData", .get k!"maxNoNewOrRepeatedData") /- 1056 -/,
      (k!"setMaxNoNewOrRepeatedData", .set k!"maxNoNewOrRepeatedData" true) /- 1062 -/,
      (k!"getNetworkRepresentation", .get k!"networkRepresentation") /- 1071 -/,
      (k!"setNetworkRepresentation", .set k!"networkRepresentation" true) /- 1077 -/,
      (k!"getReceptionProps", .get k!"receptionProps") /- 1086 -/,
      (k!"setReceptionProps", .set k!"receptionProps" true) /- 1092 -/,
      (k!"getReplaceWith", .get k!"replaceWith") /- 1101 -/,
      (k!"setReplaceWith", .set k!"replaceWith" true) /- 1107 -/,
      (k!"getSyncCounterInit", .get k!"syncCounterInit") /- 1116 -/,
      (k!"setSyncCounterInit", .set k!"syncCounterInit" true) /- 1122 -/,
      (k!"addTransformationComSpecProps", .add k!"transformationComSpecProps" true false) /- 1131 -/,
      (k!"getTransformationComSpecProps", .get k!"transformationComSpecProps") /- 1140 -/,
      (k!"getUsesEndToEndProtection", .get k!"usesEndToEndProtection") /- 1146 -/,
      (k!"setUsesEndToEndProtection", .set k!"usesEndToEndProtection" true) /- 1152 -/]⟩
   (.node .nil
    -- M2/AUTOSARTemplates/CommonStructure/MeasurementCalibrationSupport/RptSupport/__init__.py:263
    k!"RptServicePoint" ⟨false, some (2, [.sup 2, .field k!"serviceId" .none, .field k!"symbol" .none]),
     [(k!"getServiceId", .get k!"serviceId") /- 293 -/,
      (k!"setServiceId", .set k!"serviceId" true) /- 302 -/,
      (k!"getSymbol", .get k!"symbol") /- 317 -/,
      (k!"setSymbol", .set k!"symbol" true) /- 326 -/]⟩
    .nil))
  -- M2/AUTOSARTemplates/SystemTemplate/Fibex/FibexCore/CoreCommunication.py:1728
  k!"SegmentPosition" ⟨false, some (0, [.sup 0, .field k!"segmentByteOrder" .none, .field k!"segmentLength" .none, .field k!"segmentPosition" .none]),
     [(k!"getSegmentByteOrder", .get k!"segmentByteOrder") /- 1751 -/,
      (k!"setSegmentByteOrder", .set k!"segmentByteOrder" true) /- 1754 -/,
      (k!"getSegmentLength", .get k!"segmentLength") /- 1759 -/,
      (k!"setSegmentLength", .set k!"segmentLength" true) /- 1762 -/,
      (k!"getSegmentPosition", .get k!"segmentPosition") /- 1767 -/,
      (k!"setSegmentPosition", .set k!"segmentPosition" true) /- 1770 -/]⟩
  (.node (.node .nil
    -- M2/AUTOSARTemplates/SWComponentTemplate/SwcInternalBehavior/ServerCall.py:12
    k!"ServerCallPoint" ⟨true, some (2, [.guard k!"ServerCallPoint", .sup 2, .field k!"operationIRef" .none, .field k!"timeout" .none]),
     [(k!"getOperationIRef", .get k!"operationIRef") /- 34 -/,
      (k!"setOperationIRef", .set k!"operationIRef" false) /- 43 -/,
      (k!"getTimeout", .get k!"timeout") /- 56 -/,
      (k!"setTimeout", .set k!"timeout" false) /- 65 -/]⟩
    .nil)
   -- M2/AUTOSARTemplates/CommonStructure/ResourceConsumption/__init__.py:144
   k!"SoftwareContext" ⟨false, some (0, [.sup 0, .field k!"input" .none, .field k!"state" .none]),
     [(k!"getInput", .get k!"input") /- 169 -/,
      (k!"setInput", .set k!"input" true) /- 178 -/,
      (k!"getState", .get k!"state") /- 193 -/,
      (k!"setState", .set k!"state" true) /- 202 -/]⟩
   (.node .nil
    -- M2/MSR/DataDictionary/CalibrationParameter.py:209
    k!"SwCalprmAxisSet" ⟨false, some (0, [.sup 0, .field k!"_swCalprmAxis" .nil]),
     [(k!"addSwCalprmAxis", .add k!"_swCalprmAxis" false false) /- 224 -/,
      (k!"getSwCalprmAxises", .get k!"_swCalprmAxis") /- 227 -/]⟩
    .nil)))
 -- M2/AUTOSARTemplates/SWComponentTemplate/SwComponentType.py:30
 k!"SwComponentType" ⟨true, some (2, [.guard k!"SwComponentType", .sup 2, .field k!"consistencyNeeds" .nil, .field k!"ports" .nil, .field k!"portGroups" .nil, .field k!"swcMappingConstraintsRefs" .nil, .field k!"swComponentDocumentation" .none, .field k!"unitGroupRefs" .nil]),
     [(k!"createConsistencyNeeds", .other) /- 81 -/,
      (k!"getConsistencyNeeds", .get k!"consistencyNeeds") /- 100 -/,
      (k!"createPPortPrototype", .other) /- 109 -/,
      (k!"createRPortPrototype", .other) /- 128 -/,
      (k!"createPRPortPrototype", .other) /- 147 -/,
      (k!"getPorts", .get k!"ports") /- 166 -/,
      (k!"getPPortPrototypes", .other) /- 175 -/,
      (k!"getRPortPrototypes", .other) /- 186 -/,
      (k!"getPRPortPrototypes", .other) /- 197 -/,
      (k!"getPortPrototypes", .other) /- 208 -/,
      (k!"createPortGroup", .other) /- 219 -/,
      (k!"getPortGroups", .get k!"portGroups") /- 238 -/,
      (k!"addSwcMappingConstraintRef", .add k!"swcMappingConstraintsRefs" true false) /- 247 -/,
      (k!"getSwcMappingConstraintsRefs", .get k!"swcMappingConstraintsRefs") /- 262 -/,
      (k!"getSwComponentDocumentation", .get k!"swComponentDocumentation") /- 271 -/,
      (k!"setSwComponentDocumentation", .set k!"swComponentDocumentation" true) /- 280 -/,
      (k!"addUnitGroupRef", .add k!"unitGroupRefs" true false) /- 295 -/,
      (k!"getUnitGroupRefs", .get k!"unitGroupRefs") /- 310 -/]⟩
 (.node (.node (.node .nil
    -- M2/MSR/DataDictionary/RecordLayout.py:24
    k!"SwRecordLayoutV" ⟨false, some (0, [.sup 0, .field k!"baseTypeRef" .none, .field k!"desc" .none, .field k!"shortLabel" .none, .field k!"swGenericAxisParamTypeRef" .none, .field k!"swRecordLayoutVAxis" .none, .field k!"swRecordLayoutVFixValue" .none, .field k!"swRecordLayoutVIndex" .none, .field k!"swRecordLayoutVProp" .none]),
     [(k!"getBaseTypeRef", .get k!"baseTypeRef") /- 61 -/,
      (k!"setBaseTypeRef", .set k!"baseTypeRef" false) /- 64 -/,
      (k!"getDesc", .get k!"desc") /- 68 -/,
      (k!"setDesc", .set k!"desc" false) /- 71 -/,
      (k!"getShortLabel", .get k!"shortLabel") /- 75 -/,
      (k!"setShortLabel", .set k!"shortLabel" false) /- 78 -/,
      (k!"getSwGenericAxisParamTypeRef", .get k!"swGenericAxisParamTypeRef") /- 82 -/,
      (k!"setSwGenericAxisParamTypeRef", .set k!"swGenericAxisParamTypeRef" false) /- 85 -/,
      (k!"getSwRecordLayoutVAxis", .get k!"swRecordLayoutVAxis") /- 89 -/,
      (k!"setSwRecordLayoutVAxis", .set k!"swRecordLayoutVAxis" false) /- 92 -/,
      (k!"getSwRecordLayoutVFixValue", .get k!"swRecordLayoutVFixValue") /- 96 -/,
      (k!"setSwRecordLayoutVFixValue", .set k!"swRecordLayoutVFixValue" false) /- 99 -/,
      (k!"getSwRecordLayoutVIndex", .get k!"swRecordLayoutVIndex") /- 103 -/,
      (k!"setSwRecordLayoutVIndex", .set k!"swRecordLayoutVIndex" false) /- 106 -/,
      (k!"getSwRecordLayoutVProp", .get k!"swRecordLayoutVProp") /- 110 -/,
      (k!"setSwRecordLayoutVProp", .set k!"swRecordLayoutVProp" false) /- 113 -/]⟩
    .nil)
   -- M2/AUTOSARTemplates/SystemTemplate/__init__.py:23
   k!"SwcToEcuMapping" ⟨false, some (2, [.sup 2, .field k!"componentIRefs" .nil, .field k!"controlledHwElementRef" .none, .field k!"ecuInstanceRef" .none, .field k!"processingUnitRef" .none]),
     [(k!"getComponentIRefs", .get k!"componentIRefs") /- 49 -/,
      (k!"addComponentIRef", .add k!"componentIRefs" false false) /- 52 -/,
      (k!"getControlledHwElementRef", .get k!"controlledHwElementRef") /- 56 -/,
      (k!"setControlledHwElementRef", .set k!"controlledHwElementRef" false) /- 59 -/,
      (k!"getEcuInstanceRef", .get k!"ecuInstanceRef") /- 63 -/,
      (k!"setEcuInstanceRef", .set k!"ecuInstanceRef" false) /- 66 -/,
      (k!"getProcessingUnitRef", .get k!"processingUnitRef") /- 70 -/,
      (k!"setProcessingUnitRef", .set k!"processingUnitRef" false) /- 73 -/]⟩
   (.node .nil
    -- M2/AUTOSARTemplates/CommonStructure/Timing/TimingCondition/TimingCondition.py:5
    k!"TimingCondition" ⟨false, some (0, [.sup 0, .field k!"conditionFormula" .none, .field k!"modeInstances" .nil]),
     [(k!"getConditionFormula", .get k!"conditionFormula") /- 26 -/,
      (k!"setConditionFormula", .set k!"conditionFormula" false) /- 35 -/,
      (k!"addModeInstance", .add k!"modeInstances" false false) /- 48 -/,
      (k!"getModeInstances", .get k!"modeInstances") /- 61 -/]⟩
    .nil))
  -- M2/AUTOSARTemplates/CommonStructure/Timing/TimingConstraint/TimingExtensions.py:21
  k!"TimingExtension" ⟨false, some (2, [.guard k!"TimingExtension", .sup 2, .field k!"timing_requirements" .nil]),
     [(k!"createExecutionOrderConstraint", .other) /- 43 -/,
      (k!"getTimingRequirements", .get k!"timing_requirements") /- 59 -/]⟩
  (.node (.node .nil
    -- M2/MSR/Documentation/Chapters.py:353
    k!"TopicOrMsrQuery" ⟨false, some (0, [.sup 0, .field k!"msrQueryTopic1" .none, .field k!"topic1" .nil]),
     [(k!"addTopic1", .add k!"topic1" true false) /- 377 -/,
      (k!"getTopic1s", .get k!"topic1") /- 390 -/,
      (k!"setMsrQueryTopic1", .set k!"msrQueryTopic1" true) /- 399 -/,
      (k!"getMsrQueryTopic1", .get k!"msrQueryTopic1") /- 412 -/]⟩
    .nil)
   -- M2/AUTOSARTemplates/SystemTemplate/Fibex/FibexCore/CoreCommunication.py:2116
   k!"UserDefinedIPdu" ⟨false, some (2, [.sup 2, .field k!"cddType" .none]),
     [(k!"getCddType", .get k!"cddType") /- 2131 -/,
      (k!"setCddType", .set k!"cddType" false) /- 2134 -/]⟩
   (.node .nil
    -- M2/AUTOSARTemplates/CommonStructure/ServiceNeeds.py:4530
    k!"V2xFacUserNeeds" ⟨false, some (2, [.sup 2]),
     []⟩
    .nil))))

def accTable39 : Bst (ClassAcc) :=
 (.node (.node (.node (.node .nil
    -- M2/AUTOSARTemplates/SystemTemplate/Fibex/Fibex4Lin/LinCommunication.py:147
    k!"ApplicationEntry" ⟨false, some (0, [.sup 0, .field k!"frameTriggeringRef" .none]),
     [(k!"getFrameTriggeringRef", .get k!"frameTriggeringRef") /- 164 -/,
      (k!"setFrameTriggeringRef", .set k!"frameTriggeringRef" true) /- 167 -/]⟩
    .nil)
   -- M2/AUTOSARTemplates/SWComponentTemplate/PortInterface/__init__.py:474
   k!"ApplicationError" ⟨false, some (2, [.sup 2, .field k!"errorCode" .none]),
     [(k!"getErrorCode", .get k!"errorCode") /- 493 -/,
      (k!"setErrorCode", .set k!"errorCode" true) /- 503 -/]⟩
   (.node .nil
    -- M2/AUTOSARTemplates/GenericStructure/AbstractStructure.py:105
    k!"AtpBlueprintable" ⟨true, some (2, [.guard k!"AtpBlueprintable", .sup 2]),
     []⟩
    .nil))
  -- M2/AUTOSARTemplates/BswModuleTemplate/BswInterfaces.py:17
  k!"BswEntryKindEnum" ⟨false, some (0, [.sup 1]),
     []⟩
  (.node (.node .nil
    -- M2/AUTOSARTemplates/BswModuleTemplate/BswBehavior/__init__.py:1007
    k!"BswScheduleEvent" ⟨true, some (2, [.guard k!"BswScheduleEvent", .sup 2]),
     []⟩
    .nil)
   -- M2/AUTOSARTemplates/SystemTemplate/Transformer/__init__.py:120
   k!"BufferProperties" ⟨false, some (0, [.sup 0, .field k!"headerLength" .none, .field k!"inPlace" .none]),
     [(k!"getHeaderLength", .get k!"headerLength") /- 147 -/,
      (k!"setHeaderLength", .set k!"headerLength" true) /- 153 -/,
      (k!"getInPlace", .get k!"inPlace") /- 162 -/,
      (k!"setInPlace", .set k!"inPlace" true) /- 168 -/]⟩
   (.node .nil
    -- M2/AUTOSARTemplates/SystemTemplate/NetworkManagement.py:721
    k!"BusspecificNmEcu" ⟨true, some (0, [.guard k!"BusspecificNmEcu", .sup 0]),
     []⟩
    .nil)))
 -- M2/MSR/DataDictionary/DataDefProperties.py:328
 k!"CompuGenericMath" ⟨false, some (0, [.sup 0, .field k!"level" .none]),
     [(k!"getLevel", .get k!"level") /- 347 -/,
      (k!"setLevel", .set k!"level" true) /- 353 -/]⟩
 (.node (.node (.node .nil
    -- M2/AUTOSARTemplates/SWComponentTemplate/ImplicitCommunicationBehavior/__init__.py:190
    k!"ConsistencyNeeds" ⟨false, some (2, [.sup 2, .field k!"dpgDoesNotRequireCoherency" .nil, .field k!"dpgRequiresCoherency" .nil, .field k!"regDoesNotRequireStability" .nil, .field k!"regRequiresStability" .nil]),
     [(k!"createDpgDoesNotRequireCoherency", .other) /- 238 -/,
      (k!"getDpgDoesNotRequireCoherencys", .get k!"dpgDoesNotRequireCoherency") /- 257 -/,
      (k!"createDpgRequiresCoherency", .other) /- 267 -/,
      (k!"getDpgRequiresCoherencys", .get k!"dpgRequiresCoherency") /- 289 -/,
      (k!"createRegDoesNotRequireStability", .other) /- 302 -/,
      (k!"getRegDoesNotRequireStabilitys", .get k!"regDoesNotRequireStability") /- 321 -/,
      (k!"createRegRequiresStability", .other) /- 331 -/,
      (k!"getRegRequiresStabilitys", .get k!"regRequiresStability") /- 353 -/]⟩
    .nil)
   -- M2/AUTOSARTemplates/SystemTemplate/Fibex/Fibex4Ethernet/EthernetTopology.py:113
   k!"CouplingPortFifo" ⟨false, some (2, [.sup 2, .field k!"assignedTrafficClasses" .nil, .field k!"minimumFifoLength" .none, .field k!"shaper" .none, .field k!"trafficClassPreemptionSupport" .none]),
     [(k!"getAssignedTrafficClasses", .get k!"assignedTrafficClasses") /- 139 -/,
      (k!"addAssignedTrafficClass", .add k!"assignedTrafficClasses" true false) /- 142 -/,
      (k!"getMinimumFifoLength", .get k!"minimumFifoLength") /- 147 -/,
      (k!"setMinimumFifoLength", .set k!"minimumFifoLength" true) /- 150 -/,
      (k!"getShaper", .get k!"shaper") /- 155 -/,
      (k!"setShaper", .set k!"shaper" true) /- 158 -/,
      (k!"getTrafficClassPreemptionSupport", .get k!"trafficClassPreemptionSupport") /- 163 -/,
      (k!"setTrafficClassPreemptionSupport", .set k!"trafficClassPreemptionSupport" true) /- 166 -/]⟩
   (.node .nil
    -- M2/AUTOSARTemplates/CommonStructure/ServiceNeeds.py:2253
    k!"DevelopmentError" ⟨false, some (2, [.sup 2]),
     []⟩
    .nil))
  -- M2/AUTOSARTemplates/SystemTemplate/TransportProtocols.py:544
  k!"DoIpLogicAddress" ⟨false, some (2, [.sup 2, .field k!"address" .none, .field k!"doIpLogicAddressProps" .none]),
     [(k!"getAddress", .get k!"address") /- 564 -/,
      (k!"setAddress", .set k!"address" true) /- 567 -/,
      (k!"getDoIpLogicAddressProps", .get k!"doIpLogicAddressProps") /- 572 -/,
      (k!"setDoIpLogicAddressProps", .set k!"doIpLogicAddressProps" true) /- 575 -/]⟩
  (.node (.node .nil
    -- M2/AUTOSARTemplates/CommonStructure/ServiceNeeds.py:2826
    k!"DoIpServiceNeeds" ⟨true, some (2, [.guard k!"DoIpServiceNeeds", .sup 2]),
     []⟩
    .nil)
   -- M2/AUTOSARTemplates/SystemTemplate/TransportProtocols.py:581
   k!"DoIpTpConnection" ⟨false, some (0, [.sup 0, .field k!"doIpSourceAddressRef" .none, .field k!"doIpTargetAddressRef" .none, .field k!"tpSduRef" .none]),
     [(k!"getDoIpSourceAddressRef", .get k!"doIpSourceAddressRef") /- 604 -/,
      (k!"setDoIpSourceAddressRef", .set k!"doIpSourceAddressRef" true) /- 607 -/,
      (k!"getDoIpTargetAddressRef", .get k!"doIpTargetAddressRef") /- 612 -/,
      (k!"setDoIpTargetAddressRef", .set k!"doIpTargetAddressRef" true) /- 615 -/,
      (k!"getTpSduRef", .get k!"tpSduRef") /- 620 -/,
      (k!"setTpSduRef", .set k!"tpSduRef" true) /- 623 -/]⟩
   (.node .nil
    -- M2/AUTOSARTemplates/ECUCParameterDefTemplate.py:500
    k!"EcucContainerDef" ⟨true, some (2, [.guard k!"EcucContainerDef", .sup 2, .field k!"destinationUriRefs" .nil, .field k!"multiplicityConfigClasses" .nil, .field k!"origin" .none, .field k!"postBuildVariantMultiplicity" .none, .field k!"requiresIndex" .none]),
     [(k!"getDestinationUriRefs", .get k!"destinationUriRefs") /- 540 -/,
      (k!"addDestinationUriRef", .add k!"destinationUriRefs" true false) /- 546 -/,
      (k!"getMultiplicityConfigClasses", .get k!"multiplicityConfigClasses") /- 555 -/,
      (k!"addMultiplicityConfigClass", .add k!"multiplicityConfigClasses" true false) /- 561 -/,
      (k!"getOrigin", .get k!"origin") /- 570 -/,
      (k!"setOrigin", .set k!"origin" true) /- 576 -/,
      (k!"getPostBuildVariantMultiplicity", .get k!"postBuildVariantMultiplicity") /- 585 -/,
      (k!"setPostBuildVariantMultiplicity", .set k!"postBuildVariantMultiplicity" true) /- 591 -/,
      (k!"getRequiresIndex", .get k!"requiresIndex") /- 600 -/,
      (k!"setRequiresIndex", .set k!"requiresIndex" true) /- 606 -/]⟩
    .nil))))

-- M2/AUTOSARTemplates/CommonStructure/InternalBehavior.py:527
def accTable40 : Bst (ClassAcc) :=
 .node accTable38 k!"ApiPrincipleEnum" ⟨false, some (0, [.sup 1]),
     []⟩ accTable39

def accTable41 : Bst (ClassAcc) :=
 (.node (.node (.node (.node (.node .nil
     -- M2/AUTOSARTemplates/ECUCParameterDefTemplate.py:1090
     k!"EcucReferenceDef" ⟨false, some (2, [.sup 2, .field k!"destinationRef" .none]),
     [(k!"getDestinationRef", .get k!"destinationRef") /- 1108 -/,
      (k!"setDestinationRef", .set k!"destinationRef" true) /- 1114 -/]⟩
     .nil)
    -- M2/AUTOSARTemplates/CommonStructure/ServiceNeeds.py:3045
    k!"ErrorTracerNeeds" ⟨false, some (2, [.sup 2, .field k!"tracedFailures" .nil]),
     [(k!"getTracedFailures", .get k!"tracedFailures") /- 3072 -/,
      (k!"createDevelopmentError", .other) /- 3081 -/,
      (k!"createRuntimeError", .other) /- 3097 -/,
      (k!"createTransientFault", .other) /- 3113 -/]⟩
    .nil)
   -- M2/AUTOSARTemplates/CommonStructure/InternalBehavior.py:73
   k!"ExecutableEntity" ⟨true, some (2, [.guard k!"ExecutableEntity", .sup 2, .field k!"activationReasons" .nil, .field k!"canEnterRefs" .nil, .field k!"exclusiveAreaNestingOrderRefs" .nil, .field k!"minimumStartInterval" .none, .field k!"reentrancyLevel" .none, .field k!"runsInsideRefs" .nil, .field k!"swAddrMethodRef" .none]),
     [(k!"createActivationReason", .other) /- 127 -/,
      (k!"getActivationReasons", .get k!"activationReasons") /- 144 -/,
      (k!"addActivationReason", .add k!"activationReasons" true false) /- 153 -/,
      (k!"getCanEnterRefs", .get k!"canEnterRefs") /- 167 -/,
      (k!"addCanEnterRef", .add k!"canEnterRefs" true false) /- 176 -/,
      (k!"getExclusiveAreaNestingOrderRefs", .get k!"exclusiveAreaNestingOrderRefs") /- 191 -/,
      (k!"addExclusiveAreaNestingOrderRef", .add k!"exclusiveAreaNestingOrderRefs" true false) /- 200 -/,
      (k!"getMinimumStartInterval", .get k!"minimumStartInterval") /- 215 -/,
      (k!"setMinimumStartInterval", .set k!"minimumStartInterval" true) /- 224 -/,
      (k!"getReentrancyLevel", .get k!"reentrancyLevel") /- 251 -/,
      (k!"setReentrancyLevel", .set k!"reentrancyLevel" true) /- 260 -/,
      (k!"getRunsInsideRefs", .get k!"runsInsideRefs") /- 275 -/,
      (k!"addRunsInsideRef", .add k!"runsInsideRefs" true false) /- 284 -/,
      (k!"getSwAddrMethodRef", .get k!"swAddrMethodRef") /- 299 -/,
      (k!"setSwAddrMethodRef", .set k!"swAddrMethodRef" true) /- 308 -/]⟩
   (.node .nil
    -- M2/AUTOSARTemplates/SystemTemplate/Fibex/Fibex4Flexray/FlexrayTopology.py:1155
    k!"FlexrayFifoRange" ⟨false, some (0, [.sup 0, .field k!"rangeMax" .none, .field k!"rangeMin" .none]),
     [(k!"getRangeMax", .get k!"rangeMax") /- 1177 -/,
      (k!"setRangeMax", .set k!"rangeMax" true) /- 1181 -/,
      (k!"getRangeMin", .get k!"rangeMin") /- 1188 -/,
      (k!"setRangeMin", .set k!"rangeMin" true) /- 1192 -/]⟩
    .nil))
  -- M2/AUTOSARTemplates/SystemTemplate/NetworkManagement.py:1338
  k!"FlexrayNmCluster" ⟨false, some (2, [.sup 2]),
     []⟩
  (.node (.node .nil
    -- M2/AUTOSARTemplates/EcuResourceTemplate/HwAttributeValue.py:13
    k!"HwAttributeValue" ⟨false, some (0, [.sup 0, .field k!"hwAttributeDefRef" .none, .field k!"value" .none]),
     [(k!"getHwAttributeDefRef", .get k!"hwAttributeDefRef") /- 35 -/,
      (k!"setHwAttributeDefRef", .set k!"hwAttributeDefRef" true) /- 44 -/,
      (k!"getValue", .get k!"value") /- 59 -/,
      (k!"setValue", .set k!"value" true) /- 68 -/]⟩
    .nil)
   -- M2/AUTOSARTemplates/SystemTemplate/Fibex/FibexCore/CoreCommunication.py:310
   k!"ISignalIPduGroup" ⟨false, some (2, [.sup 2, .field k!"communicationDirection" .none, .field k!"communicationMode" .none, .field k!"containedISignalIPduGroupRefs" .nil, .field k!"iSignalIPduRefs" .nil, .field k!"nmPduRefs" .nil]),
     [(k!"getCommunicationDirection", .get k!"communicationDirection") /- 339 -/,
      (k!"setCommunicationDirection", .set k!"communicationDirection" false) /- 342 -/,
      (k!"getCommunicationMode", .get k!"communicationMode") /- 346 -/,
      (k!"setCommunicationMode", .set k!"communicationMode" false) /- 349 -/,
      (k!"getContainedISignalIPduGroupRefs", .get k!"containedISignalIPduGroupRefs") /- 353 -/,
      (k!"addContainedISignalIPduGroupRef", .add k!"containedISignalIPduGroupRefs" false false) /- 356 -/,
      (k!"getISignalIPduRefs", .get k!"iSignalIPduRefs") /- 360 -/,
      (k!"addISignalIPduRef", .add k!"iSignalIPduRefs" false false) /- 363 -/,
      (k!"getNmPduRefs", .get k!"nmPduRefs") /- 367 -/,
      (k!"addNmPduRef", .add k!"nmPduRefs" false false) /- 370 -/]⟩
   (.node .nil
    -- M2/AUTOSARTemplates/CommonStructure/InternalBehavior.py:324
    k!"InternalBehavior" ⟨true, some (2, [.guard k!"InternalBehavior", .sup 2, .field k!"constantMemories" .nil, .field k!"constantValueMappingRefs" .nil, .field k!"dataTypeMappingRefs" .nil, .field k!"exclusiveAreas" .nil, .field k!"exclusiveAreaNestingOrders" .nil, .field k!"staticMemories" .nil]),
     [(k!"createConstantMemory", .other) /- 372 -/,
      (k!"getConstantMemories", .get k!"constantMemories") /- 388 -/,
      (k!"addDataTypeMappingRef", .add k!"dataTypeMappingRefs" false false) /- 397 -/,
      (k!"getDataTypeMappingRefs", .get k!"dataTypeMappingRefs") /- 406 -/,
      (k!"createExclusiveArea", .other) /- 415 -/,
      (k!"getExclusiveAreas", .other) /- 431 -/,
      (k!"createExclusiveAreaNestingOrder", .other) /- 440 -/,
      (k!"getExclusiveAreaNestingOrders", .other) /- 457 -/,
      (k!"getStaticMemories", .get k!"staticMemories") /- 466 -/,
      (k!"createStaticMemory", .other) /- 475 -/]⟩
    .nil)))
 -- M2/AUTOSARTemplates/GenericStructure/GeneralTemplateClasses/PrimitiveTypes.py:911
 k!"IntervalTypeEnum" ⟨false, some (0, [.sup 1]),
     []⟩
 (.node (.node (.node .nil
    -- M2/AUTOSARTemplates/GenericStructure/GeneralTemplateClasses/PrimitiveTypes.py:1177
    k!"Ip4AddressString" ⟨false, some (0, [.sup 0]),
     []⟩
    .nil)
   -- M2/AUTOSARTemplates/GenericStructure/GeneralTemplateClasses/PrimitiveTypes.py:1194
   k!"Ip6AddressString" ⟨false, some (0, [.sup 0]),
     []⟩
   (.node .nil
    -- M2/MSR/Documentation/TextModel/BlockElements/ListElements.py:89
    k!"ItemLabelPosEnum" ⟨false, some (0, [.sup 1]),
     []⟩
    .nil))
  -- M2/MSR/Documentation/TextModel/LanguageDataModel.py:139
  k!"LanguageSpecific" ⟨true, some (0, [.guard k!"LanguageSpecific", .sup 0, .field k!"l" .none, .field k!"value" .other]),
     [(k!"getL", .get k!"l") /- 166 -/,
      (k!"setL", .set k!"l" true) /- 172 -/,
      (k!"getValue", .get k!"value") /- 180 -/,
      (k!"setValue", .set k!"value" true) /- 186 -/]⟩
  (.node (.node .nil
    -- M2/AUTOSARTemplates/GenericStructure/LifeCycles.py:286
    k!"LifeCycleInfoSet" ⟨false, some (2, [.sup 2, .field k!"defaultLcStateRef" .none, .field k!"defaultPeriodBegin" .none, .field k!"defaultPeriodEnd" .none, .field k!"lifeCycleInfos" .nil, .field k!"usedLifeCycleStateDefinitionGroupRef" .none]),
     [(k!"getDefaultLcStateRef", .get k!"defaultLcStateRef") /- 314 -/,
      (k!"setDefaultLcStateRef", .set k!"defaultLcStateRef" true) /- 323 -/,
      (k!"getDefaultPeriodBegin", .get k!"defaultPeriodBegin") /- 338 -/,
      (k!"setDefaultPeriodBegin", .set k!"defaultPeriodBegin" true) /- 347 -/,
      (k!"getDefaultPeriodEnd", .get k!"defaultPeriodEnd") /- 362 -/,
      (k!"setDefaultPeriodEnd", .set k!"defaultPeriodEnd" true) /- 371 -/,
      (k!"getLifeCycleInfos", .get k!"lifeCycleInfos") /- 386 -/,
      (k!"addLifeCycleInfo", .add k!"lifeCycleInfos" true false) /- 395 -/,
      (k!"getUsedLifeCycleStateDefinitionGroupRef", .get k!"usedLifeCycleStateDefinitionGroupRef") /- 410 -/,
      (k!"setUsedLifeCycleStateDefinitionGroupRef", .set k!"usedLifeCycleStateDefinitionGroupRef" true) /- 419 -/]⟩
    .nil)
   -- M2/AUTOSARTemplates/SystemTemplate/Fibex/Fibex4Lin/LinCommunication.py:206
   k!"LinScheduleTable" ⟨false, some (2, [.sup 2, .field k!"resumePosition" .none, .field k!"runMode" .none, .field k!"tableEntries" .nil]),
     [(k!"getResumePosition", .get k!"resumePosition") /- 229 -/,
      (k!"setResumePosition", .set k!"resumePosition" true) /- 232 -/,
      (k!"getRunMode", .get k!"runMode") /- 237 -/,
      (k!"setRunMode", .set k!"runMode" true) /- 240 -/,
      (k!"getTableEntries", .get k!"tableEntries") /- 245 -/,
      (k!"addTableEntry", .add k!"tableEntries" true false) /- 248 -/]⟩
   (.node .nil
    -- M2/AUTOSARTemplates/GenericStructure/GeneralTemplateClasses/PrimitiveTypes.py:1213
    k!"MacAddressString" ⟨false, some (0, [.sup 0]),
     []⟩
    .nil))))

def accTable42 : Bst (ClassAcc) :=
 (.node (.node (.node (.node .nil
    -- M2/AUTOSARTemplates/SWComponentTemplate/Communication.py:771
    k!"NvRequireComSpec" ⟨false, some (0, [.sup 0, .field k!"initValue" .none, .field k!"variableRef" .none]),
     [(k!"getInitValue", .get k!"initValue") /- 790 -/,
      (k!"setInitValue", .set k!"initValue" true) /- 799 -/,
      (k!"getVariableRef", .get k!"variableRef") /- 814 -/,
      (k!"setVariableRef", .set k!"variableRef" true) /- 823 -/]⟩
    .nil)
   -- M2/AUTOSARTemplates/SystemTemplate/Fibex/Fibex4Ethernet/EthernetCommunication.py:316
   k!"SoAdRoutingGroup" ⟨false, some (2, [.sup 2, .field k!"eventGroupControlType" .none]),
     [(k!"getEventGroupControlType", .get k!"eventGroupControlType") /- 333 -/,
      (k!"setEventGroupControlType", .set k!"eventGroupControlType" true) /- 336 -/]⟩
   (.node .nil
    -- M2/AUTOSARTemplates/SystemTemplate/Fibex/Fibex4Ethernet/EthernetCommunication.py:11
    k!"SocketConnection" ⟨false, some (0, [.sup 0, .field k!"allowedIPv6ExtHeadersRef" .none, .field k!"allowedTcpOptionsRef" .none, .field k!"clientIpAddrFromConnectionRequest" .none, .field k!"clientPortRef" .none, .field k!"clientPortFromConnectionRequest" .none, .field k!"pdus" .nil, .field k!"pduSocketConnectionIpdus" .nil, .field k!"pduCollectionMaxBufferSize" .none, .field k!"pduCollectionTimeout" .none, .field k!"runtimeIpAddressConfiguration" .none, .field k!"runtimePortConfiguration" .none, .field k!"shortLabel" .none]),
     [(k!"getAllowedIPv6ExtHeadersRef", .get k!"allowedIPv6ExtHeadersRef") /- 61 -/,
      (k!"setAllowedIPv6ExtHeadersRef", .set k!"allowedIPv6ExtHeadersRef" false) /- 64 -/,
      (k!"getAllowedTcpOptionsRef", .get k!"allowedTcpOptionsRef") /- 68 -/,
      (k!"setAllowedTcpOptionsRef", .set k!"allowedTcpOptionsRef" false) /- 71 -/,
      (k!"getClientIpAddrFromConnectionRequest", .get k!"clientIpAddrFromConnectionRequest") /- 75 -/,
      (k!"setClientIpAddrFromConnectionRequest", .set k!"clientIpAddrFromConnectionRequest" false) /- 78 -/,
      (k!"getClientPortRef", .get k!"clientPortRef") /- 82 -/,
      (k!"setClientPortRef", .set k!"clientPortRef" false) /- 85 -/,
      (k!"getClientPortFromConnectionRequest", .get k!"clientPortFromConnectionRequest") /- 89 -/,
      (k!"setClientPortFromConnectionRequest", .set k!"clientPortFromConnectionRequest" false) /- 92 -/,
      (k!"getPdus", .get k!"pdus") /- 96 -/,
      (k!"addPdu", .add k!"pdus" false false) /- 99 -/,
      (k!"getPduSocketConnectionIpdus", .get k!"pduSocketConnectionIpdus") /- 103 -/,
      (k!"addPduSocketConnectionIpdu", .add k!"pduSocketConnectionIpdus" false false) /- 106 -/,
      (k!"getPduCollectionMaxBufferSize", .get k!"pduCollectionMaxBufferSize") /- 110 -/,
      (k!"setPduCollectionMaxBufferSize", .set k!"pduCollectionMaxBufferSize" false) /- 113 -/,
      (k!"getPduCollectionTimeout", .get k!"pduCollectionTimeout") /- 117 -/,
      (k!"setPduCollectionTimeout", .set k!"pduCollectionTimeout" false) /- 120 -/,
      (k!"getRuntimeIpAddressConfiguration", .get k!"runtimeIpAddressConfiguration") /- 124 -/,
      (k!"setRuntimeIpAddressConfiguration", .set k!"runtimeIpAddressConfiguration" false) /- 127 -/,
      (k!"getRuntimePortConfiguration", .get k!"runtimePortConfiguration") /- 131 -/,
      (k!"setRuntimePortConfiguration", .set k!"runtimePortConfiguration" false) /- 134 -/,
      (k!"getShortLabel", .get k!"shortLabel") /- 138 -/,
      (k!"setShortLabel", .set k!"shortLabel" false) /- 141 -/]⟩
    .nil))
  -- M2/MSR/DataDictionary/Axis.py:117
  k!"SwAxisIndividual" ⟨false, some (0, [.sup 0, .field k!"compuMethodRef" .none, .field k!"dataConstrRef" .none, .field k!"inputVariableTypeRef" .none, .field k!"swAxisGeneric" .none, .field k!"swMaxAxisPoints" .none, .field k!"swMinAxisPoints" .none, .field k!"swVariableRefs" .nil, .field k!"unitRef" .none]),
     [(k!"getCompuMethodRef", .get k!"compuMethodRef") /- 154 -/,
      (k!"setCompuMethodRef", .set k!"compuMethodRef" false) /- 157 -/,
      (k!"getDataConstrRef", .get k!"dataConstrRef") /- 161 -/,
      (k!"setDataConstrRef", .set k!"dataConstrRef" false) /- 164 -/,
      (k!"getInputVariableTypeRef", .get k!"inputVariableTypeRef") /- 168 -/,
      (k!"setInputVariableTypeRef", .set k!"inputVariableTypeRef" false) /- 171 -/,
      (k!"getSwAxisGeneric", .get k!"swAxisGeneric") /- 175 -/,
      (k!"setSwAxisGeneric", .set k!"swAxisGeneric" false) /- 178 -/,
      (k!"getSwMaxAxisPoints", .get k!"swMaxAxisPoints") /- 182 -/,
      (k!"setSwMaxAxisPoints", .set k!"swMaxAxisPoints" false) /- 185 -/,
      (k!"getSwMinAxisPoints", .get k!"swMinAxisPoints") /- 189 -/,
      (k!"setSwMinAxisPoints", .set k!"swMinAxisPoints" false) /- 192 -/,
      (k!"getSwVariableRefs", .get k!"swVariableRefs") /- 196 -/,
      (k!"setSwVariableRefs", .set k!"swVariableRefs" false) /- 199 -/,
      (k!"getUnitRef", .get k!"unitRef") /- 203 -/,
      (k!"setUnitRef", .set k!"unitRef" false) /- 206 -/]⟩
  (.node (.node .nil
    -- M2/MSR/DataDictionary/DataDefProperties.py:222
    k!"SwCalprmRefProxy" ⟨false, some (0, [.sup 0, .field k!"arParameter" .none, .field k!"mcDataInstanceRef" .none]),
     [(k!"getArParameter", .get k!"arParameter") /- 246 -/,
      (k!"setArParameter", .set k!"arParameter" true) /- 252 -/,
      (k!"getMcDataInstanceRef", .get k!"mcDataInstanceRef") /- 260 -/,
      (k!"setMcDataInstanceRef", .set k!"mcDataInstanceRef" true) /- 266 -/]⟩
    .nil)
   -- M2/MSR/DataDictionary/DataDefProperties.py:362
   k!"SwDataDependency" ⟨false, some (0, [.sup 0, .field k!"swDataDependencyFormula" .none, .field k!"swDataDependencyArgs" .none]),
     [(k!"getSwDataDependencyFormula", .get k!"swDataDependencyFormula") /- 386 -/,
      (k!"setSwDataDependencyFormula", .set k!"swDataDependencyFormula" true) /- 392 -/,
      (k!"getSwDataDependencyArgs", .get k!"swDataDependencyArgs") /- 400 -/,
      (k!"setSwDataDependencyArgs", .set k!"swDataDependencyArgs" true) /- 406 -/]⟩
   (.node .nil
    -- M2/MSR/DataDictionary/DataDefProperties.py:29
    k!"SwImplPolicyEnum" ⟨false, some (0, [.sup 1]),
     []⟩
    .nil)))
 -- M2/AUTOSARTemplates/SystemTemplate/SWmapping.py:10
 k!"SwcToImplMapping" ⟨false, some (2, [.sup 2, .field k!"componentIRefs" .nil, .field k!"componentImplementationRef" .none]),
     [(k!"getComponentIRefs", .get k!"componentIRefs") /- 30 -/,
      (k!"addComponentIRef", .add k!"componentIRefs" true false) /- 33 -/,
      (k!"getComponentImplementationRef", .get k!"componentImplementationRef") /- 38 -/,
      (k!"setComponentImplementationRef", .set k!"componentImplementationRef" true) /- 41 -/]⟩
 (.node (.node (.node .nil
    -- M2/AUTOSARTemplates/SWComponentTemplate/PortInterface/__init__.py:1341
    k!"TextTableMapping" ⟨false, some (0, [.sup 0, .field k!"bitfieldTextTableMaskFirst" .none, .field k!"bitfieldTextTableMaskSecond" .none, .field k!"identicalMapping" .none, .field k!"mappingDirection" .none, .field k!"valuePairs" .nil]),
     [(k!"getBitfieldTextTableMaskFirst", .get k!"bitfieldTextTableMaskFirst") /- 1379 -/,
      (k!"setBitfieldTextTableMaskFirst", .set k!"bitfieldTextTableMaskFirst" true) /- 1390 -/,
      (k!"getBitfieldTextTableMaskSecond", .get k!"bitfieldTextTableMaskSecond") /- 1407 -/,
      (k!"setBitfieldTextTableMaskSecond", .set k!"bitfieldTextTableMaskSecond" true) /- 1418 -/,
      (k!"getIdenticalMapping", .get k!"identicalMapping") /- 1435 -/,
      (k!"setIdenticalMapping", .set k!"identicalMapping" true) /- 1446 -/,
      (k!"getMappingDirection", .get k!"mappingDirection") /- 1463 -/,
      (k!"setMappingDirection", .set k!"mappingDirection" true) /- 1474 -/,
      (k!"addValuePair", .add k!"valuePairs" true false) /- 1491 -/,
      (k!"getValuePairs", .get k!"valuePairs") /- 1508 -/]⟩
    .nil)
   -- M2/AUTOSARTemplates/CommonStructure/Timing/TimingConstraint/TimingConstraint.py:23
   k!"TimingConstraint" ⟨true, some (2, [.guard k!"TimingConstraint", .sup 2, .field k!"timing_condition_ref" .none]),
     []⟩
   (.node .nil
    -- M2/AUTOSARTemplates/SWComponentTemplate/PortInterface/__init__.py:731
    k!"TriggerInterface" ⟨false, some (2, [.sup 2, .field k!"_triggers" .nil]),
     []⟩
    .nil))
  -- M2/AUTOSARTemplates/GenericStructure/GeneralTemplateClasses/PrimitiveTypes.py:716
  k!"UnlimitedInteger" ⟨false, some (0, [.sup 0]),
     []⟩
  (.node (.node .nil
    -- M2/AUTOSARTemplates/GenericStructure/GeneralTemplateClasses/PrimitiveTypes.py:531
    k!"ARPositiveInteger" ⟨false, some (0, [.sup 0]),
     []⟩
    .nil)
   -- M2/AUTOSARTemplates/BswModuleTemplate/BswImplementation.py:13
   k!"BswImplementation" ⟨false, some (2, [.sup 2, .field k!"arReleaseVersion" .none, .field k!"behaviorRef" .none, .field k!"preconfiguredConfigurationRefs" .nil, .field k!"recommendedConfigurationRefs" .nil, .field k!"vendorApiInfix" .none, .field k!"vendorSpecificModuleDefRefs" .nil]),
     [(k!"getArReleaseVersion", .get k!"arReleaseVersion") /- 55 -/,
      (k!"setArReleaseVersion", .set k!"arReleaseVersion" true) /- 59 -/,
      (k!"getBehaviorRef", .get k!"behaviorRef") /- 65 -/,
      (k!"setBehaviorRef", .set k!"behaviorRef" true) /- 69 -/,
      (k!"getPreconfiguredConfigurationRefs", .get k!"preconfiguredConfigurationRefs") /- 75 -/,
      (k!"addPreconfiguredConfigurationRef", .add k!"preconfiguredConfigurationRefs" true false) /- 79 -/,
      (k!"getRecommendedConfigurationRefs", .get k!"recommendedConfigurationRefs") /- 85 -/,
      (k!"addRecommendedConfigurationRef", .add k!"recommendedConfigurationRefs" true false) /- 89 -/,
      (k!"getVendorApiInfix", .get k!"vendorApiInfix") /- 95 -/,
      (k!"setVendorApiInfix", .set k!"vendorApiInfix" true) /- 99 -/,
      (k!"getVendorSpecificModuleDefRefs", .get k!"vendorSpecificModuleDefRefs") /- 105 -/,
      (k!"addVendorSpecificModuleDefRef", .add k!"vendorSpecificModuleDefRefs" true false) /- 109 -/]⟩
   (.node .nil
    -- M2/AUTOSARTemplates/BswModuleTemplate/BswBehavior/BswInterruptEvent.py:8
    k!"BswInterruptEvent" ⟨false, some (0, [.sup 0]),
     []⟩
    .nil))))

-- M2/AUTOSARTemplates/SWComponentTemplate/Communication.py:1480
def accTable43 : Bst (ClassAcc) :=
 .node accTable41 k!"NvProvideComSpec" ⟨false, some (0, [.sup 0, .field k!"ramBlockInitValue" .none, .field k!"romBlockInitValue" .none, .field k!"variableRef" .none]),
     [(k!"getRamBlockInitValue", .get k!"ramBlockInitValue") /- 1502 -/,
      (k!"setRamBlockInitValue", .set k!"ramBlockInitValue" true) /- 1511 -/,
      (k!"getRomBlockInitValue", .get k!"romBlockInitValue") /- 1526 -/,
      (k!"setRomBlockInitValue", .set k!"romBlockInitValue" true) /- 1535 -/,
      (k!"getVariableRef", .get k!"variableRef") /- 1550 -/,
      (k!"setVariableRef", .set k!"variableRef" true) /- 1559 -/]⟩ accTable42

-- M2/AUTOSARTemplates/ECUCParameterDefTemplate.py:856
def accTable44 : Bst (ClassAcc) :=
 .node accTable40 k!"EcucParameterDef" ⟨true, some (2, [.guard k!"EcucParameterDef", .sup 2, .field k!"derivation" .none, .field k!"symbolicNameValue" .none, .field k!"withAuto" .none]),
     [(k!"getDerivation", .get k!"derivation") /- 880 -/,
      (k!"setDerivation", .set k!"derivation" true) /- 883 -/,
      (k!"getSymbolicNameValue", .get k!"symbolicNameValue") /- 888 -/,
      (k!"setSymbolicNameValue", .set k!"symbolicNameValue" true) /- 891 -/,
      (k!"getWithAuto", .get k!"withAuto") /- 896 -/,
      (k!"setWithAuto", .set k!"withAuto" true) /- 899 -/]⟩ accTable43

-- M2/AUTOSARTemplates/SWComponentTemplate/SwcInternalBehavior/DataElements.py:15
def accTable45 : Bst (ClassAcc) :=
 .node accTable37 k!"ParameterAccess" ⟨false, some (2, [.sup 2, .field k!"accessedParameter" .none, .field k!"swDataDefProps" .none]),
     [(k!"getAccessedParameter", .get k!"accessedParameter") /- 34 -/,
      (k!"setAccessedParameter", .set k!"accessedParameter" false) /- 43 -/,
      (k!"getSwDataDefProps", .get k!"swDataDefProps") /- 56 -/,
      (k!"setSwDataDefProps", .set k!"swDataDefProps" false) /- 65 -/]⟩ accTable44

def accTable46 : Bst (ClassAcc) :=
 (.node (.node (.node (.node (.node .nil
     -- M2/MSR/Documentation/Chapters.py:284
     k!"ChapterOrMsrQuery" ⟨false, some (0, [.sup 0, .field k!"chapters" .nil, .field k!"msrQueryChapter" .none]),
     [(k!"addChapter", .add k!"chapters" true false) /- 308 -/,
      (k!"getChapters", .get k!"chapters") /- 321 -/,
      (k!"setMsrQueryChapter", .set k!"msrQueryChapter" true) /- 330 -/,
      (k!"getMsrQueryChapter", .get k!"msrQueryChapter") /- 343 -/]⟩
     .nil)
    -- M2/AUTOSARTemplates/SystemTemplate/Fibex/FibexCore/CoreTopology.py:783
    k!"CommConnectorPort" ⟨true, some (2, [.guard k!"CommConnectorPort", .sup 2, .field k!"communicationDirection" .none]),
     [(k!"getCommunicationDirection", .get k!"communicationDirection") /- 803 -/,
      (k!"setCommunicationDirection", .set k!"communicationDirection" true) /- 806 -/]⟩
    .nil)
   -- M2/MSR/AsamHdo/ComputationMethod.py:87
   k!"CompuConstContent" ⟨true, some (0, [.guard k!"CompuConstContent", .sup 0]),
     []⟩
   (.node .nil
    -- M2/AUTOSARTemplates/CommonStructure/Constants/__init__.py:465
    k!"ConstantReference" ⟨false, some (0, [.sup 0, .field k!"constantRef" .none]),
     [(k!"getConstantRef", .get k!"constantRef") /- 485 -/,
      (k!"setConstantRef", .set k!"constantRef" false) /- 494 -/]⟩
    .nil))
  -- M2/AUTOSARTemplates/SWComponentTemplate/ApplicationAttributes/__init__.py:11
  k!"DataLimitKindEnum" ⟨false, some (0, [.sup 1]),
     []⟩
  (.node (.node .nil
    -- M2/AUTOSARTemplates/SWComponentTemplate/SwcInternalBehavior/RTEEvents.py:199
    k!"DataReceivedEvent" ⟨false, some (2, [.sup 2, .field k!"dataIRef" .none]),
     [(k!"getDataIRef", .get k!"dataIRef") /- 214 -/,
      (k!"setDataIRef", .set k!"dataIRef" false) /- 223 -/]⟩
    .nil)
   -- M2/AUTOSARTemplates/CommonStructure/ServiceNeeds.py:1596
   k!"DtcFormatTypeEnum" ⟨false, some (0, [.sup 1]),
     []⟩
   (.node .nil
    -- M2/AUTOSARTemplates/ECUCParameterDefTemplate.py:1522
    k!"EcucFloatParamDef" ⟨false, some (2, [.sup 2, .field k!"defaultValue" .none, .field k!"max" .none, .field k!"min" .none]),
     [(k!"getDefaultValue", .get k!"defaultValue") /- 1544 -/,
      (k!"setDefaultValue", .set k!"defaultValue" true) /- 1547 -/,
      (k!"getMax", .get k!"max") /- 1552 -/,
      (k!"setMax", .set k!"max" true) /- 1555 -/,
      (k!"getMin", .get k!"min") /- 1560 -/,
      (k!"setMin", .set k!"min" true) /- 1563 -/]⟩
    .nil)))
 -- M2/AUTOSARTemplates/GenericStructure/GeneralTemplateClasses/EngineeringObject.py:12
 k!"EngineeringObject" ⟨true, some (0, [.guard k!"EngineeringObject", .sup 0, .field k!"category" .none, .field k!"domain" .none, .field k!"revisionLabels" .nil, .field k!"shortLabel" .none]),
     [(k!"getCategory", .get k!"category") /- 59 -/,
      (k!"setCategory", .set k!"category" true) /- 70 -/,
      (k!"getDomain", .get k!"domain") /- 88 -/,
      (k!"setDomain", .set k!"domain" true) /- 101 -/,
      (k!"addRevisionLabel", .add k!"revisionLabels" true false) /- 121 -/,
      (k!"getRevisionLabels", .get k!"revisionLabels") /- 137 -/,
      (k!"getShortLabel", .get k!"shortLabel") /- 146 -/,
      (k!"setShortLabel", .set k!"shortLabel" true) /- 156 -/]⟩
 (.node (.node (.node .nil
    -- M2/AUTOSARTemplates/AdaptivePlatform/PlatformModuleDeployment/Firewall/FirewallRuleProps.py:4
    k!"FirewallRuleProps" ⟨false, some (0, [.sup 0, .field k!"allowAny" .none, .field k!"direction" .none, .field k!"protocol" .none]),
     [(k!"getAllowAny", .get k!"allowAny") /- 28 -/,
      (k!"setAllowAny", .set k!"allowAny" false) /- 37 -/,
      (k!"getDirection", .get k!"direction") /- 50 -/,
      (k!"setDirection", .set k!"direction" false) /- 59 -/,
      (k!"getProtocol", .get k!"protocol") /- 72 -/,
      (k!"setProtocol", .set k!"protocol" false) /- 81 -/]⟩
    .nil)
   -- M2/MSR/Documentation/Annotation.py:8
   k!"GeneralAnnotation" ⟨true, some (0, [.guard k!"GeneralAnnotation", .sup 0, .field k!"annotationOrigin" .none, .field k!"annotationText" .none, .field k!"label" .none]),
     [(k!"getAnnotationOrigin", .get k!"annotationOrigin") /- 31 -/,
      (k!"setAnnotationOrigin", .set k!"annotationOrigin" false) /- 34 -/,
      (k!"getAnnotationText", .get k!"annotationText") /- 38 -/,
      (k!"setAnnotationText", .set k!"annotationText" false) /- 41 -/,
      (k!"getLabel", .get k!"label") /- 45 -/,
      (k!"setLabel", .set k!"label" false) /- 48 -/]⟩
   (.node .nil
    -- M2/AUTOSARTemplates/SystemTemplate/Fibex/FibexCore/CoreCommunication.py:1997
    k!"GeneralPurposePdu" ⟨false, some (2, [.sup 2]),
     []⟩
    .nil))
  -- M2/AUTOSARTemplates/SWComponentTemplate/Communication.py:24
  k!"HandleInvalidEnum" ⟨false, some (0, [.sup 1]),
     []⟩
  (.node (.node .nil
    -- M2/AUTOSARTemplates/SWComponentTemplate/Communication.py:1857
    k!"HandleTimeoutEnum" ⟨false, some (0, [.sup 1]),
     []⟩
    .nil)
   -- M2/AUTOSARTemplates/CommonStructure/ServiceNeeds.py:3262
   k!"HardwareTestNeeds" ⟨false, some (2, [.sup 2]),
     []⟩
   (.node .nil
    -- M2/AUTOSARTemplates/EcuResourceTemplate/__init__.py:188
    k!"HwPinGroupContent" ⟨false, some (0, [.sup 0, .field k!"hwPin" .none, .field k!"hwPinGroup" .none]),
     [(k!"getHwPin", .get k!"hwPin") /- 216 -/,
      (k!"createHwPin", .other) /- 225 -/,
      (k!"getHwPinGroup", .get k!"hwPinGroup") /- 239 -/,
      (k!"setHwPinGroup", .set k!"hwPinGroup" true) /- 248 -/]⟩
    .nil))))

def accTable47 : Bst (ClassAcc) :=
 (.node (.node (.node (.node (.node .nil
     -- M2/AUTOSARTemplates/SystemTemplate/Fibex/Fibex4Ethernet/NetworkEndpoint.py:28
     k!"Ipv4Configuration" ⟨false, some (0, [.sup 0, .field k!"assignmentPriority" .none, .field k!"defaultGateway" .none, .field k!"dnsServerAddresses" .nil, .field k!"ipAddressKeepBehavior" .none, .field k!"ipv4Address" .none, .field k!"ipv4AddressSource" .none, .field k!"networkMask" .none, .field k!"ttl" .none]),
     [(k!"getAssignmentPriority", .get k!"assignmentPriority") /- 66 -/,
      (k!"setAssignmentPriority", .set k!"assignmentPriority" false) /- 69 -/,
      (k!"getDefaultGateway", .get k!"defaultGateway") /- 73 -/,
      (k!"setDefaultGateway", .set k!"defaultGateway" false) /- 76 -/,
      (k!"getDnsServerAddresses", .get k!"dnsServerAddresses") /- 80 -/,
      (k!"addDnsServerAddress", .add k!"dnsServerAddresses" false false) /- 83 -/,
      (k!"getIpAddressKeepBehavior", .get k!"ipAddressKeepBehavior") /- 87 -/,
      (k!"setIpAddressKeepBehavior", .set k!"ipAddressKeepBehavior" false) /- 90 -/,
      (k!"getIpv4Address", .get k!"ipv4Address") /- 94 -/,
      (k!"setIpv4Address", .set k!"ipv4Address" false) /- 97 -/,
      (k!"getIpv4AddressSource", .get k!"ipv4AddressSource") /- 101 -/,
      (k!"setIpv4AddressSource", .set k!"ipv4AddressSource" false) /- 104 -/,
      (k!"getNetworkMask", .get k!"networkMask") /- 108 -/,
      (k!"setNetworkMask", .set k!"networkMask" false) /- 111 -/,
      (k!"getTtl", .get k!"ttl") /- 115 -/,
      (k!"setTtl", .set k!"ttl" false) /- 118 -/]⟩
     .nil)
    -- M2/AUTOSARTemplates/SystemTemplate/Fibex/Fibex4Ethernet/NetworkEndpoint.py:123
    k!"Ipv6Configuration" ⟨false, some (0, [.sup 0, .field k!"assignmentPriority" .none, .field k!"defaultRouter" .none, .field k!"dnsServerAddresses" .nil, .field k!"enableAnycast" .none, .field k!"hopCount" .none, .field k!"ipAddressKeepBehavior" .none, .field k!"ipAddressPrefixLength" .none, .field k!"ipv6Address" .none, .field k!"ipv6AddressSource" .none]),
     [(k!"getAssignmentPriority", .get k!"assignmentPriority") /- 164 -/,
      (k!"setAssignmentPriority", .set k!"assignmentPriority" false) /- 167 -/,
      (k!"getDefaultRouter", .get k!"defaultRouter") /- 171 -/,
      (k!"setDefaultRouter", .set k!"defaultRouter" false) /- 174 -/,
      (k!"getDnsServerAddresses", .get k!"dnsServerAddresses") /- 178 -/,
      (k!"setDnsServerAddresses", .set k!"dnsServerAddresses" false) /- 181 -/,
      (k!"getEnableAnycast", .get k!"enableAnycast") /- 185 -/,
      (k!"setEnableAnycast", .set k!"enableAnycast" false) /- 188 -/,
      (k!"getHopCount", .get k!"hopCount") /- 192 -/,
      (k!"setHopCount", .set k!"hopCount" false) /- 195 -/,
      (k!"getIpAddressKeepBehavior", .get k!"ipAddressKeepBehavior") /- 199 -/,
      (k!"setIpAddressKeepBehavior", .set k!"ipAddressKeepBehavior" false) /- 202 -/,
      (k!"getIpAddressPrefixLength", .get k!"ipAddressPrefixLength") /- 206 -/,
      (k!"setIpAddressPrefixLength", .set k!"ipAddressPrefixLength" false) /- 209 -/,
      (k!"getIpv6Address", .get k!"ipv6Address") /- 213 -/,
      (k!"setIpv6Address", .set k!"ipv6Address" false) /- 216 -/,
      (k!"getIpv6AddressSource", .get k!"ipv6AddressSource") /- 220 -/,
      (k!"setIpv6AddressSource", .set k!"ipv6AddressSource" false) /- 223 -/]⟩
    .nil)
   -- M2/AUTOSARTemplates/SystemTemplate/Fibex/Fibex4Ethernet/EthernetTopology.py:9
   k!"MacMulticastGroup" ⟨false, some (2, [.sup 2, .field k!"macMulticastAddress" .none]),
     [(k!"getMacMulticastAddress", .get k!"macMulticastAddress") /- 26 -/,
      (k!"setMacMulticastAddress", .set k!"macMulticastAddress" true) /- 29 -/]⟩
   (.node .nil
    -- M2/AUTOSARTemplates/CommonStructure/McGroups.py:151
    k!"McGroupDataRefSet" ⟨false, some (0, [.sup 0, .field k!"flatMapEntryRefs" .nil, .field k!"mcDataInstanceRefs" .nil]),
     [(k!"addFlatMapEntryRef", .add k!"flatMapEntryRefs" true false) /- 177 -/,
      (k!"getFlatMapEntryRefs", .get k!"flatMapEntryRefs") /- 192 -/,
      (k!"addMcDataInstanceRef", .add k!"mcDataInstanceRefs" true false) /- 201 -/,
      (k!"getMcDataInstanceRefs", .get k!"mcDataInstanceRefs") /- 216 -/]⟩
    .nil))
  -- M2/AUTOSARTemplates/CommonStructure/ResourceConsumption/HeapUsage.py:131
  k!"MeasuredHeapUsage" ⟨false, some (2, [.sup 2, .field k!"averageMemoryConsumption" .none, .field k!"maximumMemoryConsumption" .none, .field k!"minimumMemoryConsumption" .none, .field k!"testPattern" .none]),
     [(k!"getAverageMemoryConsumption", .get k!"averageMemoryConsumption") /- 171 -/,
      (k!"setAverageMemoryConsumption", .set k!"averageMemoryConsumption" true) /- 180 -/,
      (k!"getMaximumMemoryConsumption", .get k!"maximumMemoryConsumption") /- 195 -/,
      (k!"setMaximumMemoryConsumption", .set k!"maximumMemoryConsumption" true) /- 204 -/,
      (k!"getMinimumMemoryConsumption", .get k!"minimumMemoryConsumption") /- 219 -/,
      (k!"setMinimumMemoryConsumption", .set k!"minimumMemoryConsumption" true) /- 228 -/,
      (k!"getTestPattern", .get k!"testPattern") /- 243 -/,
      (k!"setTestPattern", .set k!"testPattern" true) /- 252 -/]⟩
  (.node (.node .nil
    -- M2/MSR/DataDictionary/AuxillaryObjects.py:34
    k!"MemorySectionType" ⟨false, some (0, [.sup 1]),
     []⟩
    .nil)
   -- M2/AUTOSARTemplates/CommonStructure/ModeDeclaration.py:610
   k!"ModeErrorBehavior" ⟨false, some (0, [.sup 0, .field k!"defaultModeRef" .none, .field k!"errorReactionPolicy" .none]),
     [(k!"getDefaultModeRef", .get k!"defaultModeRef") /- 634 -/,
      (k!"setDefaultModeRef", .set k!"defaultModeRef" true) /- 643 -/,
      (k!"getErrorReactionPolicy", .get k!"errorReactionPolicy") /- 658 -/,
      (k!"setErrorReactionPolicy", .set k!"errorReactionPolicy" true) /- 667 -/]⟩
   (.node .nil
    -- M2/AUTOSARTemplates/SystemTemplate/NetworkManagement.py:13
    k!"NmClusterCoupling" ⟨true, some (0, [.guard k!"NmClusterCoupling", .sup 0]),
     []⟩
    .nil)))
 -- M2/AUTOSARTemplates/SWComponentTemplate/NvBlockComponent.py:305
 k!"NvBlockDescriptor" ⟨false, some (2, [.sup 2, .field k!"clientServerPorts" .nil, .field k!"constantValueMappingRefs" .nil, .field k!"dataTypeMappingRefs" .nil, .field k!"instantiationDataDefPropss" .nil, .field k!"modeSwitchEventTriggeredActivitys" .nil, .field k!"nvBlockDataMappings" .nil, .field k!"nvBlockNeeds" .none, .field k!"ramBlock" .none, .field k!"romBlock" .none, .field k!"supportDirtyFlag" .none, .field k!"timingEventRef" .none, .field k!"writingStrategies" .nil]),
     [(k!"getClientServerPorts", .get k!"clientServerPorts") /- 378 -/,
      (k!"addClientServerPort", .add k!"clientServerPorts" true true) /- 389 -/,
      (k!"getConstantValueMappingRefs", .get k!"constantValueMappingRefs") /- 406 -/,
      (k!"addConstantValueMappingRef", .add k!"constantValueMappingRefs" true true) /- 417 -/,
      (k!"getDataTypeMappingRefs", .get k!"dataTypeMappingRefs") /- 434 -/,
      (k!"addDataTypeMappingRef", .add k!"dataTypeMappingRefs" true true) /- 445 -/,
      (k!"getInstantiationDataDefPropss", .get k!"instantiationDataDefPropss") /- 462 -/,
      (k!"addInstantiationDataDefProps", .add k!"instantiationDataDefPropss" true true) /- 473 -/,
      (k!"getModeSwitchEventTriggeredActivitys", .get k!"modeSwitchEventTriggeredActivitys") /- 490 -/,
      (k!"addModeSwitchEventTriggeredActivity", .add k!"modeSwitchEventTriggeredActivitys" true true) /- 501 -/,
      (k!"getNvBlockDataMappings", .get k!"nvBlockDataMappings") /- 518 -/,
      (k!"addNvBlockDataMapping", .add k!"nvBlockDataMappings" true true) /- 529 -/,
      (k!"getNvBlockNeeds", .get k!"nvBlockNeeds") /- 546 -/,
      (k!"setNvBlockNeeds", .set k!"nvBlockNeeds" true) /- 557 -/,
      (k!"getRamBlock", .get k!"ramBlock") /- 574 -/,
      (k!"setRamBlock", .set k!"ramBlock" true) /- 585 -/,
      (k!"getRomBlock", .get k!"romBlock") /- 602 -/,
      (k!"setRomBlock", .set k!"romBlock" true) /- 613 -/,
      (k!"getSupportDirtyFlag", .get k!"supportDirtyFlag") /- 630 -/,
      (k!"setSupportDirtyFlag", .set k!"supportDirtyFlag" true) /- 641 -/,
      (k!"getTimingEventRef", .get k!"timingEventRef") /- 658 -/,
      (k!"setTimingEventRef", .set k!"timingEventRef" true) /- 669 -/,
      (k!"getWritingStrategies", .get k!"writingStrategies") /- 686 -/,
      (k!"addWritingStrategy", .add k!"writingStrategies" true true) /- 697 -/]⟩
 (.node (.node (.node .nil
    -- M2/AUTOSARTemplates/SystemTemplate/Fibex/FibexCore/CoreCommunication.py:38
    k!"PduToFrameMapping" ⟨false, some (2, [.sup 2, .field k!"packingByteOrder" .none, .field k!"pduRef" .none, .field k!"startPosition" .none, .field k!"updateIndicationBitPosition" .none]),
     [(k!"getPackingByteOrder", .get k!"packingByteOrder") /- 64 -/,
      (k!"setPackingByteOrder", .set k!"packingByteOrder" false) /- 67 -/,
      (k!"getPduRef", .get k!"pduRef") /- 71 -/,
      (k!"setPduRef", .set k!"pduRef" false) /- 74 -/,
      (k!"getStartPosition", .get k!"startPosition") /- 78 -/,
      (k!"setStartPosition", .set k!"startPosition" false) /- 81 -/,
      (k!"getUpdateIndicationBitPosition", .get k!"updateIndicationBitPosition") /- 85 -/,
      (k!"setUpdateIndicationBitPosition", .set k!"updateIndicationBitPosition" false) /- 88 -/]⟩
    .nil)
   -- M2/AUTOSARTemplates/SWComponentTemplate/SwcInternalBehavior/PerInstanceMemory.py:12
   k!"PerInstanceMemory" ⟨false, some (2, [.sup 2, .field k!"initValue" .none, .field k!"swDataDefProps" .none, .field k!"type" .none, .field k!"typeDefinition" .none]),
     [(k!"getInitValue", .get k!"initValue") /- 37 -/,
      (k!"setInitValue", .set k!"initValue" false) /- 46 -/,
      (k!"getSwDataDefProps", .get k!"swDataDefProps") /- 59 -/,
      (k!"setSwDataDefProps", .set k!"swDataDefProps" false) /- 68 -/,
      (k!"getType", .get k!"type") /- 81 -/,
      (k!"setType", .set k!"type" false) /- 90 -/,
      (k!"getTypeDefinition", .get k!"typeDefinition") /- 103 -/,
      (k!"setTypeDefinition", .set k!"typeDefinition" false) /- 112 -/]⟩
   (.node .nil
    -- M2/MSR/AsamHdo/Units.py:16
    k!"PhysicalDimension" ⟨false, some (2, [.sup 2, .field k!"currentExp" .none, .field k!"lengthExp" .none, .field k!"luminousIntensityExp" .none, .field k!"massExp" .none, .field k!"molarAmountExp" .none, .field k!"temperatureExp" .none, .field k!"timeExp" .none]),
     [(k!"getCurrentExp", .get k!"currentExp") /- 65 -/,
      (k!"setCurrentExp", .set k!"currentExp" true) /- 71 -/,
      (k!"getLengthExp", .get k!"lengthExp") /- 79 -/,
      (k!"setLengthExp", .set k!"lengthExp" true) /- 85 -/,
      (k!"getLuminousIntensityExp", .get k!"luminousIntensityExp") /- 93 -/,
      (k!"setLuminousIntensityExp", .set k!"luminousIntensityExp" true) /- 99 -/,
      (k!"getMassExp", .get k!"massExp") /- 107 -/,
      (k!"setMassExp", .set k!"massExp" true) /- 113 -/,
      (k!"getMolarAmountExp", .get k!"molarAmountExp") /- 121 -/,
      (k!"setMolarAmountExp", .set k!"molarAmountExp" true) /- 127 -/,
      (k!"getTemperatureExp", .get k!"temperatureExp") /- 135 -/,
      (k!"setTemperatureExp", .set k!"temperatureExp" true) /- 141 -/,
      (k!"getTimeExp", .get k!"timeExp") /- 149 -/,
      (k!"setTimeExp", .set k!"timeExp" true) /- 155 -/]⟩
    .nil))
  -- M2/MSR/Documentation/Chapters.py:92
  k!"PredefinedChapter" ⟨false, some (0, [.sup 0, .field k!"chapterModel" .none]),
     [(k!"setChapterModel", .set k!"chapterModel" true) /- 111 -/,
      (k!"getChapterModel", .get k!"chapterModel") /- 124 -/]⟩
  (.node (.node .nil
    -- M2/AUTOSARTemplates/GenericStructure/VariantHandling/__init__.py:153
    k!"PredefinedVariant" ⟨false, some (2, [.sup 2, .field k!"includedVariantRefs" .nil, .field k!"postBuildVariantCriterionValueSetRefs" .nil, .field k!"swSystemconstantValueSetRefs" .nil]),
     [(k!"getIncludedVariantRefs", .get k!"includedVariantRefs") /- 184 -/,
      (k!"addIncludedVariantRef", .add k!"includedVariantRefs" true false) /- 187 -/,
      (k!"getPostBuildVariantCriterionValueSetRefs", .get k!"postBuildVariantCriterionValueSetRefs") /- 192 -/,
      (k!"addPostBuildVariantCriterionValueSetRef", .add k!"postBuildVariantCriterionValueSetRefs" true false) /- 195 -/,
      (k!"getSwSystemconstantValueSetRefs", .get k!"swSystemconstantValueSetRefs") /- 200 -/,
      (k!"addSwSystemconstantValueSetRef", .add k!"swSystemconstantValueSetRefs" true false) /- 203 -/]⟩
    .nil)
   -- M2/AUTOSARTemplates/GenericStructure/GeneralTemplateClasses/PrimitiveTypes.py:1390
   k!"RegularExpression" ⟨false, some (0, [.sup 0]),
     []⟩
   (.node .nil
    -- M2/AUTOSARTemplates/CommonStructure/Constants/__init__.py:1060
    k!"RuleBasedAxisCont" ⟨false, some (0, [.sup 0, .field k!"category" .none, .field k!"unitRef" .none, .field k!"swArraysize" .none, .field k!"swAxisIndex" .none, .field k!"ruleBasedValues" .none]),
     [(k!"getCategory", .get k!"category") /- 1088 -/,
      (k!"setCategory", .set k!"category" false) /- 1091 -/,
      (k!"getUnitRef", .get k!"unitRef") /- 1095 -/,
      (k!"setUnitRef", .set k!"unitRef" false) /- 1098 -/,
      (k!"getSwArraysize", .get k!"swArraysize") /- 1102 -/,
      (k!"setSwArraysize", .set k!"swArraysize" false) /- 1105 -/,
      (k!"getSwAxisIndex", .get k!"swAxisIndex") /- 1109 -/,
      (k!"setSwAxisIndex", .set k!"swAxisIndex" false) /- 1112 -/,
      (k!"getRuleBasedValues", .get k!"ruleBasedValues") /- 1116 -/,
      (k!"setRuleBasedValues", .set k!"ruleBasedValues" false) /- 1119 -/]⟩
    .nil))))

-- M2/AUTOSARTemplates/SystemTemplate/Fibex/FibexCore/CoreCommunication.py:1683
def accTable48 : Bst (ClassAcc) :=
 .node accTable46 k!"ISignalTriggering" ⟨false, some (2, [.sup 2, .field k!"iSignalRef" .none, .field k!"iSignalGroupRef" .none, .field k!"iSignalPortRefs" .nil]),
     [(k!"getISignalRef", .get k!"iSignalRef") /- 1706 -/,
      (k!"setISignalRef", .set k!"iSignalRef" false) /- 1709 -/,
      (k!"getISignalGroupRef", .get k!"iSignalGroupRef") /- 1713 -/,
      (k!"setISignalGroupRef", .set k!"iSignalGroupRef" false) /- 1716 -/,
      (k!"getISignalPortRefs", .get k!"iSignalPortRefs") /- 1720 -/,
      (k!"addISignalPortRef", .add k!"iSignalPortRefs" false false) /- 1723 -/]⟩ accTable47

def accTable49 : Bst (ClassAcc) :=
 (.node (.node (.node (.node (.node .nil
     -- M2/AUTOSARTemplates/CommonStructure/ResourceConsumption/MemorySectionUsage.py:308
     k!"SectionNamePrefix" ⟨false, some (2, [.sup 2, .field k!"implementedInRef" .none]),
     [(k!"getImplementedInRef", .get k!"implementedInRef") /- 345 -/,
      (k!"setImplementedInRef", .set k!"implementedInRef" true) /- 357 -/]⟩
     .nil)
    -- M2/AUTOSARTemplates/CommonStructure/ServiceNeeds.py:606
    k!"ServiceDependency" ⟨true, some (0, [.guard k!"ServiceDependency", .sup 0, .field k!"assignedDataTypes" .nil, .field k!"diagnosticRelevance" .none, .field k!"symbolicNameProps" .none]),
     [(k!"getAssignedDataTypes", .get k!"assignedDataTypes") /- 639 -/,
      (k!"addAssignedDataType", .add k!"assignedDataTypes" true false) /- 648 -/,
      (k!"getDiagnosticRelevance", .get k!"diagnosticRelevance") /- 663 -/,
      (k!"setDiagnosticRelevance", .set k!"diagnosticRelevance" true) /- 672 -/,
      (k!"getSymbolicNameProps", .get k!"symbolicNameProps") /- 687 -/,
      (k!"setSymbolicNameProps", .set k!"symbolicNameProps" true) /- 696 -/]⟩
    .nil)
   -- M2/AUTOSARTemplates/GenericStructure/GeneralTemplateClasses/Identifiable.py:116
   k!"ShortNameFragment" ⟨false, some (0, [.sup 0, .field k!"role" .none, .field k!"fragment" .none]),
     [(k!"getRole", .get k!"role") /- 137 -/,
      (k!"setRole", .set k!"role" true) /- 146 -/,
      (k!"getFragment", .get k!"fragment") /- 161 -/,
      (k!"setFragment", .set k!"fragment" true) /- 170 -/]⟩
   (.node .nil
    -- M2/AUTOSARTemplates/SWComponentTemplate/PortInterface/__init__.py:880
    k!"SubElementMapping" ⟨false, some (0, [.sup 0, .field k!"firstElement" .none, .field k!"secondElement" .none, .field k!"textTableMappings" .nil]),
     [(k!"getFirstElement", .get k!"firstElement") /- 908 -/,
      (k!"setFirstElement", .set k!"firstElement" true) /- 919 -/,
      (k!"getSecondElement", .get k!"secondElement") /- 936 -/,
      (k!"setSecondElement", .set k!"secondElement" true) /- 947 -/,
      (k!"addTextTableMapping", .add k!"textTableMappings" true false) /- 964 -/,
      (k!"getTextTableMappings", .get k!"textTableMappings") /- 981 -/]⟩
    .nil))
  -- M2/AUTOSARTemplates/SWComponentTemplate/SwcImplementation.py:11
  k!"SwcImplementation" ⟨false, some (2, [.sup 2, .field k!"behaviorRef" .none, .field k!"perInstanceMemorySizes" .nil, .field k!"requiredRTEVendor" .none]),
     [(k!"getBehaviorRef", .get k!"behaviorRef") /- 33 -/,
      (k!"setBehaviorRef", .set k!"behaviorRef" false) /- 42 -/,
      (k!"getPerInstanceMemorySizes", .get k!"perInstanceMemorySizes") /- 55 -/,
      (k!"addPerInstanceMemorySize", .add k!"perInstanceMemorySizes" false false) /- 64 -/,
      (k!"getRequiredRTEVendor", .get k!"requiredRTEVendor") /- 77 -/,
      (k!"setRequiredRTEVendor", .set k!"requiredRTEVendor" false) /- 86 -/]⟩
  (.node (.node .nil
    -- M2/AUTOSARTemplates/CommonStructure/ServiceNeeds.py:4368
    k!"SymbolicNameProps" ⟨false, some (2, [.sup 2]),
     []⟩
    .nil)
   -- M2/AUTOSARTemplates/SystemTemplate/Fibex/FibexCore/CoreCommunication.py:1630
   k!"SystemSignalGroup" ⟨false, some (2, [.sup 2, .field k!"systemSignalRefs" .nil, .field k!"transformingSystemSignalRef" .none]),
     [(k!"getSystemSignalRefs", .get k!"systemSignalRefs") /- 1654 -/,
      (k!"addSystemSignalRef", .add k!"systemSignalRefs" false false) /- 1660 -/,
      (k!"getTransformingSystemSignalRef", .get k!"transformingSystemSignalRef") /- 1667 -/,
      (k!"setTransformingSystemSignalRef", .set k!"transformingSystemSignalRef" true) /- 1673 -/]⟩
   (.node .nil
    -- M2/AUTOSARTemplates/SystemTemplate/TransportProtocols.py:116
    k!"TpConnectionIdent" ⟨false, some (2, [.sup 2]),
     []⟩
    .nil)))
 -- M2/AUTOSARTemplates/SystemTemplate/Fibex/FibexCore/CoreTopology.py:610
 k!"AbstractCanCluster" ⟨true, some (2, [.guard k!"AbstractCanCluster", .sup 2, .field k!"busOffRecovery" .none, .field k!"canFdBaudrate" .none, .field k!"canXlBaudrate" .none]),
     [(k!"getBusOffRecovery", .get k!"busOffRecovery") /- 640 -/,
      (k!"setBusOffRecovery", .set k!"busOffRecovery" true) /- 646 -/,
      (k!"getCanFdBaudrate", .get k!"canFdBaudrate") /- 655 -/,
      (k!"setCanFdBaudrate", .set k!"canFdBaudrate" true) /- 661 -/,
      (k!"getCanXlBaudrate", .get k!"canXlBaudrate") /- 670 -/,
      (k!"setCanXlBaudrate", .set k!"canXlBaudrate" true) /- 676 -/]⟩
 (.node (.node (.node .nil
    -- M2/AUTOSARTemplates/SWComponentTemplate/SwcInternalBehavior/AutosarVariableRef.py:11
    k!"AutosarVariableRef" ⟨false, some (0, [.sup 0, .field k!"autosarVariableIRef" .none, .field k!"autosarVariableInImplDatatype" .none, .field k!"localVariableRef" .none]),
     [(k!"getAutosarVariableIRef", .get k!"autosarVariableIRef") /- 33 -/,
      (k!"setAutosarVariableIRef", .set k!"autosarVariableIRef" false) /- 42 -/,
      (k!"getAutosarVariableInImplDatatype", .get k!"autosarVariableInImplDatatype") /- 55 -/,
      (k!"setAutosarVariableInImplDatatype", .set k!"autosarVariableInImplDatatype" false) /- 59 -/,
      (k!"getLocalVariableRef", .get k!"localVariableRef") /- 63 -/,
      (k!"setLocalVariableRef", .set k!"localVariableRef" false) /- 72 -/]⟩
    .nil)
   -- M2/MSR/AsamHdo/BaseTypes.py:14
   k!"BaseTypeDefinition" ⟨true, some (0, [.guard k!"BaseTypeDefinition", .sup 0]),
     []⟩
   (.node .nil
    -- M2/AUTOSARTemplates/CommonStructure/StandardizationTemplate/BlueprintGenerator/BlueprintGenerator.py:7
    k!"BlueprintGenerator" ⟨false, some (0, [.sup 0, .field k!"expression" .none, .field k!"introduction" .none]),
     [(k!"getExpression", .get k!"expression") /- 42 -/,
      (k!"setExpression", .set k!"expression" true) /- 48 -/,
      (k!"getIntroduction", .get k!"introduction") /- 57 -/,
      (k!"setIntroduction", .set k!"introduction" true) /- 64 -/]⟩
    .nil))
  -- M2/AUTOSARTemplates/BswModuleTemplate/BswBehavior/__init__.py:1708
  k!"BswBackgroundEvent" ⟨false, some (2, [.sup 2]),
     []⟩
  (.node (.node .nil
    -- M2/AUTOSARTemplates/BswModuleTemplate/BswBehavior/__init__.py:135
    k!"BswDirectCallPoint" ⟨false, some (2, [.sup 2, .field k!"calledEntryRef" .none, .field k!"calledFromWithinExclusiveAreaRef" .none]),
     [(k!"getCalledEntryRef", .get k!"calledEntryRef") /- 163 -/,
      (k!"setCalledEntryRef", .set k!"calledEntryRef" true) /- 172 -/,
      (k!"getCalledFromWithinExclusiveAreaRef", .get k!"calledFromWithinExclusiveAreaRef") /- 187 -/,
      (k!"setCalledFromWithinExclusiveAreaRef", .set k!"calledFromWithinExclusiveAreaRef" true) /- 196 -/]⟩
    .nil)
   -- M2/AUTOSARTemplates/BswModuleTemplate/BswBehavior/__init__.py:780
   k!"BswInterruptEntity" ⟨false, some (2, [.sup 2, .field k!"interruptCategory" .none, .field k!"interruptSource" .none]),
     [(k!"getInterruptCategory", .get k!"interruptCategory") /- 808 -/,
      (k!"setInterruptCategory", .set k!"interruptCategory" false) /- 817 -/,
      (k!"getInterruptSource", .get k!"interruptSource") /- 830 -/,
      (k!"setInterruptSource", .set k!"interruptSource" false) /- 839 -/]⟩
   (.node .nil
    -- M2/AUTOSARTemplates/BswModuleTemplate/BswBehavior/__init__.py:1087
    k!"BswModeSwitchEvent" ⟨false, some (2, [.sup 2, .field k!"activation" .none, .field k!"modeIRefs" .nil]),
     [(k!"getActivation", .get k!"activation") /- 1111 -/,
      (k!"setActivation", .set k!"activation" true) /- 1120 -/,
      (k!"getModeIRefs", .get k!"modeIRefs") /- 1135 -/,
      (k!"addModeIRef", .add k!"modeIRefs" true false) /- 1144 -/]⟩
    .nil))))

def accTable50 : Bst (ClassAcc) :=
 (.node (.node (.node (.node .nil
    -- M2/AUTOSARTemplates/SystemTemplate/Fibex/Fibex4Can/CanCommunication.py:58
    k!"CanFrameTriggering" ⟨false, some (2, [.sup 2, .field k!"absolutelyScheduledTimings" .nil, .field k!"canAddressingMode" .none, .field k!"canFdFrameSupport" .none, .field k!"canFrameRxBehavior" .none, .field k!"canFrameTxBehavior" .none, .field k!"canXlFrameTriggeringProps" .none, .field k!"identifier" .none, .field k!"j1939requestable" .none, .field k!"rxIdentifierRange" .none, .field k!"rxMask" .none, .field k!"txMask" .none]),
     [(k!"getAbsolutelyScheduledTimings", .get k!"absolutelyScheduledTimings") /- 105 -/,
      (k!"setAbsolutelyScheduledTimings", .set k!"absolutelyScheduledTimings" false) /- 108 -/,
      (k!"getCanAddressingMode", .get k!"canAddressingMode") /- 112 -/,
      (k!"setCanAddressingMode", .set k!"canAddressingMode" false) /- 115 -/,
      (k!"getCanFdFrameSupport", .get k!"canFdFrameSupport") /- 119 -/,
      (k!"setCanFdFrameSupport", .set k!"canFdFrameSupport" false) /- 122 -/,
      (k!"getCanFrameRxBehavior", .get k!"canFrameRxBehavior") /- 126 -/,
      (k!"setCanFrameRxBehavior", .set k!"canFrameRxBehavior" false) /- 129 -/,
      (k!"getCanFrameTxBehavior", .get k!"canFrameTxBehavior") /- 133 -/,
      (k!"setCanFrameTxBehavior", .set k!"canFrameTxBehavior" false) /- 136 -/,
      (k!"getCanXlFrameTriggeringProps", .get k!"canXlFrameTriggeringProps") /- 140 -/,
      (k!"setCanXlFrameTriggeringProps", .set k!"canXlFrameTriggeringProps" false) /- 143 -/,
      (k!"getIdentifier", .get k!"identifier") /- 147 -/,
      (k!"setIdentifier", .set k!"identifier" false) /- 150 -/,
      (k!"getJ1939requestable", .get k!"j1939requestable") /- 154 -/,
      (k!"setJ1939requestable", .set k!"j1939requestable" false) /- 157 -/,
      (k!"getRxIdentifierRange", .get k!"rxIdentifierRange") /- 161 -/,
      (k!"setRxIdentifierRange", .set k!"rxIdentifierRange" false) /- 164 -/,
      (k!"getRxMask", .get k!"rxMask") /- 168 -/,
      (k!"setRxMask", .set k!"rxMask" false) /- 171 -/,
      (k!"getTxMask", .get k!"txMask") /- 175 -/,
      (k!"setTxMask", .set k!"txMask" false) /- 178 -/]⟩
    .nil)
   -- M2/AUTOSARTemplates/SystemTemplate/Fibex/FibexCore/CoreTopology.py:216
   k!"CanPhysicalChannel" ⟨false, some (2, [.sup 2]),
     []⟩
   (.node .nil
    -- M2/AUTOSARTemplates/GenericStructure/GeneralTemplateClasses/Identifiable.py:229
    k!"CollectableElement" ⟨true, some (0, [.guard k!"CollectableElement", .sup 0, .field k!"elements" .nil, .field k!"element_mappings" .other]),
     [(k!"getTotalElement", .other) /- 253 -/,
      (k!"removeElement", .other) /- 263 -/,
      (k!"getElements", .get k!"elements") /- 281 -/,
      (k!"addElement", .other) /- 290 -/,
      (k!"getElement", .other) /- 307 -/,
      (k!"IsElementExists", .other) /- 327 -/]⟩
    .nil))
  -- M2/AUTOSARTemplates/SystemTemplate/Fibex/FibexCore/CoreTopology.py:17
  k!"CommunicationCycle" ⟨true, some (0, [.guard k!"CommunicationCycle", .sup 0]),
     []⟩
  (.node (.node .nil
    -- M2/MSR/AsamHdo/ComputationMethod.py:178
    k!"CompuScaleContents" ⟨true, some (0, [.guard k!"CompuScaleContents", .sup 0]),
     []⟩
    .nil)
   -- M2/AUTOSARTemplates/GenericStructure/VariantHandling/__init__.py:384
   k!"ConditionByFormula" ⟨false, some (0, [.sup 0, .field k!"bindingTime" .none]),
     [(k!"getBindingTime", .get k!"bindingTime") /- 415 -/,
      (k!"setBindingTime", .set k!"bindingTime" true) /- 423 -/]⟩
   (.node .nil
    -- M2/AUTOSARTemplates/CommonStructure/Timing/TimingConstraint/EventTriggeringConstraint.py:190
    k!"ConfidenceInterval" ⟨false, some (0, [.sup 0, .field k!"confidence_level" .none, .field k!"lower_bound" .none, .field k!"upper_bound" .none]),
     [(k!"getConfidenceLevel", .get k!"confidence_level") /- 219 -/,
      (k!"setConfidenceLevel", .set k!"confidence_level" false) /- 222 -/,
      (k!"getLowerBound", .get k!"lower_bound") /- 226 -/,
      (k!"setLowerBound", .set k!"lower_bound" false) /- 229 -/,
      (k!"getUpperBound", .get k!"upper_bound") /- 233 -/,
      (k!"setUpperBound", .set k!"upper_bound" false) /- 236 -/]⟩
    .nil)))
 -- M2/AUTOSARTemplates/SystemTemplate/Fibex/Fibex4Ethernet/ServiceInstances.py:300
 k!"ConsumedEventGroup" ⟨false, some (2, [.sup 2, .field k!"applicationEndpointRef" .none, .field k!"autoRequire" .none, .field k!"eventGroupIdentifier" .none, .field k!"eventMulticastAddressRefs" .nil, .field k!"pduActivationRoutingGroups" .nil, .field k!"priority" .none, .field k!"routingGroupRefs" .nil, .field k!"sdClientConfig" .none, .field k!"sdClientTimerConfigRef" .none]),
     [(k!"getApplicationEndpointRef", .get k!"applicationEndpointRef") /- 341 -/,
      (k!"setApplicationEndpointRef", .set k!"applicationEndpointRef" true) /- 344 -/,
      (k!"getAutoRequire", .get k!"autoRequire") /- 349 -/,
      (k!"setAutoRequire", .set k!"autoRequire" true) /- 352 -/,
      (k!"getEventGroupIdentifier", .get k!"eventGroupIdentifier") /- 357 -/,
      (k!"setEventGroupIdentifier", .set k!"eventGroupIdentifier" true) /- 360 -/,
      (k!"getEventMulticastAddressRefs", .get k!"eventMulticastAddressRefs") /- 365 -/,
      (k!"addEventMulticastAddressRef", .add k!"eventMulticastAddressRefs" true false) /- 368 -/,
      (k!"getPduActivationRoutingGroups", .get k!"pduActivationRoutingGroups") /- 373 -/,
      (k!"setPduActivationRoutingGroups", .set k!"pduActivationRoutingGroups" true) /- 376 -/,
      (k!"getPriority", .get k!"priority") /- 381 -/,
      (k!"setPriority", .set k!"priority" true) /- 384 -/,
      (k!"getRoutingGroupRefs", .get k!"routingGroupRefs") /- 389 -/,
      (k!"addRoutingGroupRef", .add k!"routingGroupRefs" true false) /- 392 -/,
      (k!"getSdClientConfig", .get k!"sdClientConfig") /- 397 -/,
      (k!"setSdClientConfig", .set k!"sdClientConfig" true) /- 400 -/,
      (k!"getSdClientTimerConfigRef", .get k!"sdClientTimerConfigRef") /- 405 -/,
      (k!"setSdClientTimerConfigRef", .set k!"sdClientTimerConfigRef" true) /- 408 -/]⟩
 (.node (.node (.node .nil
    -- M2/AUTOSARTemplates/SystemTemplate/Fibex/FibexCore/CoreCommunication.py:134
    k!"ContainedIPduProps" ⟨false, some (0, [.sup 0, .field k!"collectionSemantics" .none, .field k!"headerIdLongHeader" .none, .field k!"headerIdShortHeader" .none, .field k!"offset" .none, .field k!"timeout" .none, .field k!"trigger" .none, .field k!"updateIndicationBitPosition" .none]),
     [(k!"getCollectionSemantics", .get k!"collectionSemantics") /- 169 -/,
      (k!"setCollectionSemantics", .set k!"collectionSemantics" false) /- 172 -/,
      (k!"getHeaderIdLongHeader", .get k!"headerIdLongHeader") /- 176 -/,
      (k!"setHeaderIdLongHeader", .set k!"headerIdLongHeader" false) /- 179 -/,
      (k!"getHeaderIdShortHeader", .get k!"headerIdShortHeader") /- 183 -/,
      (k!"setHeaderIdShortHeader", .set k!"headerIdShortHeader" false) /- 186 -/,
      (k!"getOffset", .get k!"offset") /- 190 -/,
      (k!"setOffset", .set k!"offset" false) /- 193 -/,
      (k!"getTimeout", .get k!"timeout") /- 197 -/,
      (k!"setTimeout", .set k!"timeout" false) /- 200 -/,
      (k!"getTrigger", .get k!"trigger") /- 204 -/,
      (k!"setTrigger", .set k!"trigger" false) /- 207 -/,
      (k!"getUpdateIndicationBitPosition", .get k!"updateIndicationBitPosition") /- 211 -/,
      (k!"setUpdateIndicationBitPosition", .set k!"updateIndicationBitPosition" false) /- 214 -/]⟩
    .nil)
   -- M2/AUTOSARTemplates/CommonStructure/ServiceNeeds.py:1920
   k!"CryptoServiceNeeds" ⟨false, some (2, [.sup 2, .field k!"algorithmFamily" .none, .field k!"algorithmMode" .none, .field k!"cryptoKeyDescription" .none, .field k!"maximumKeyLength" .none]),
     [(k!"getAlgorithmFamily", .get k!"algorithmFamily") /- 1956 -/,
      (k!"setAlgorithmFamily", .set k!"algorithmFamily" false) /- 1965 -/,
      (k!"getAlgorithmMode", .get k!"algorithmMode") /- 1979 -/,
      (k!"setAlgorithmMode", .set k!"algorithmMode" false) /- 1988 -/,
      (k!"getCryptoKeyDescription", .get k!"cryptoKeyDescription") /- 2002 -/,
      (k!"setCryptoKeyDescription", .set k!"cryptoKeyDescription" false) /- 2011 -/,
      (k!"getMaximumKeyLength", .get k!"maximumKeyLength") /- 2025 -/,
      (k!"setMaximumKeyLength", .set k!"maximumKeyLength" false) /- 2034 -/]⟩
   (.node .nil
    -- M2/AUTOSARTemplates/CommonStructure/Filter.py:11
    k!"DataFilterTypeEnum" ⟨false, some (0, [.sup 1]),
     []⟩
    .nil))
  -- M2/AUTOSARTemplates/SWComponentTemplate/ImplicitCommunicationBehavior/__init__.py:20
  k!"DataPrototypeGroup" ⟨false, some (2, [.sup 2, .field k!"dataPrototypeGroupIRefs" .nil, .field k!"implicitDataAccessIRefs" .nil]),
     [(k!"addDataPrototypeGroupIRef", .add k!"dataPrototypeGroupIRefs" true false) /- 51 -/,
      (k!"getDataPrototypeGroupIRefs", .get k!"dataPrototypeGroupIRefs") /- 67 -/,
      (k!"addImplicitDataAccessIRef", .add k!"implicitDataAccessIRefs" true false) /- 78 -/,
      (k!"getImplicitDataAccessIRefs", .get k!"implicitDataAccessIRefs") /- 94 -/]⟩
  (.node (.node .nil
    -- M2/AUTOSARTemplates/SystemTemplate/Transformer/__init__.py:45
    k!"DataTransformation" ⟨false, some (2, [.sup 2, .field k!"dataTransformationKind" .none, .field k!"executeDespiteDataUnavailability" .none, .field k!"transformerChainRefs" .nil]),
     [(k!"getDataTransformationKind", .get k!"dataTransformationKind") /- 74 -/,
      (k!"setDataTransformationKind", .set k!"dataTransformationKind" true) /- 80 -/,
      (k!"getExecuteDespiteDataUnavailability", .get k!"executeDespiteDataUnavailability") /- 89 -/,
      (k!"setExecuteDespiteDataUnavailability", .set k!"executeDespiteDataUnavailability" true) /- 95 -/,
      (k!"getTransformerChainRefs", .get k!"transformerChainRefs") /- 104 -/,
      (k!"addTransformerChainRef", .add k!"transformerChainRefs" true false) /- 110 -/]⟩
    .nil)
   -- M2/AUTOSARTemplates/SWComponentTemplate/Datatype/Datatypes.py:252
   k!"DataTypeMappingSet" ⟨false, some (2, [.sup 2, .field k!"dataTypeMaps" .nil, .field k!"modeRequestTypeMaps" .nil]),
     [(k!"addDataTypeMap", .add k!"dataTypeMaps" false false) /- 271 -/,
      (k!"getDataTypeMaps", .get k!"dataTypeMaps") /- 275 -/,
      (k!"addModeRequestTypeMap", .add k!"modeRequestTypeMaps" false false) /- 278 -/,
      (k!"getModeRequestTypeMaps", .get k!"modeRequestTypeMaps") /- 282 -/]⟩
   (.node .nil
    -- M2/AUTOSARTemplates/SystemTemplate/DataMapping.py:423
    k!"DataTypePolicyEnum" ⟨false, some (0, [.sup 1]),
     []⟩
    .nil))))

-- M2/AUTOSARTemplates/BswModuleTemplate/BswBehavior/__init__.py:36
def accTable51 : Bst (ClassAcc) :=
 .node accTable49 k!"BswModuleCallPoint" ⟨true, some (2, [.guard k!"BswModuleCallPoint", .sup 2, .field k!"contextLimitationRefs" .nil]),
     [(k!"getContextLimitationRefs", .get k!"contextLimitationRefs") /- 63 -/,
      (k!"addContextLimitationRef", .add k!"contextLimitationRefs" false false) /- 72 -/]⟩ accTable50

-- M2/AUTOSARTemplates/SystemTemplate/Fibex/Fibex4Can/CanCommunication.py:9
def accTable52 : Bst (ClassAcc) :=
 .node accTable48 k!"RxIdentifierRange" ⟨false, some (0, [.sup 0, .field k!"lowerCanId" .none, .field k!"upperCanId" .none]),
     [(k!"getLowerCanId", .get k!"lowerCanId") /- 29 -/,
      (k!"setLowerCanId", .set k!"lowerCanId" false) /- 32 -/,
      (k!"getUpperCanId", .get k!"upperCanId") /- 36 -/,
      (k!"setUpperCanId", .set k!"upperCanId" false) /- 39 -/]⟩ accTable51

def accTable53 : Bst (ClassAcc) :=
 (.node (.node (.node (.node (.node .nil
     -- M2/AUTOSARTemplates/ECUCDescriptionTemplate.py:299
     k!"EcucContainerValue" ⟨false, some (2, [.base k!"EcucIndexableValue" 0, .base k!"Identifiable" 2, .field k!"definitionRef" .none, .field k!"parameterValues" .nil, .field k!"referenceValues" .nil, .field k!"subContainers" .nil]),
     [(k!"getDefinitionRef", .get k!"definitionRef") /- 325 -/,
      (k!"setDefinitionRef", .set k!"definitionRef" false) /- 328 -/,
      (k!"getParameterValues", .get k!"parameterValues") /- 332 -/,
      (k!"addParameterValue", .add k!"parameterValues" false false) /- 335 -/,
      (k!"getReferenceValues", .get k!"referenceValues") /- 339 -/,
      (k!"addReferenceValue", .add k!"referenceValues" false false) /- 342 -/,
      (k!"getSubContainers", .get k!"subContainers") /- 346 -/,
      (k!"createSubContainer", .other) /- 349 -/]⟩
     .nil)
    -- M2/AUTOSARTemplates/ECUCDescriptionTemplate.py:52
    k!"EcucIndexableValue" ⟨true, some (0, [.guard k!"EcucIndexableValue", .sup 0, .field k!"index" .none]),
     [(k!"getIndex", .get k!"index") /- 74 -/,
      (k!"setIndex", .set k!"index" true) /- 80 -/]⟩
    .nil)
   -- M2/AUTOSARTemplates/ECUCDescriptionTemplate.py:91
   k!"EcucParameterValue" ⟨true, some (0, [.guard k!"EcucParameterValue", .sup 0, .field k!"annotations" .nil, .field k!"definitionRef" .none, .field k!"isAutoValue" .none]),
     [(k!"getAnnotations", .get k!"annotations") /- 116 -/,
      (k!"addAnnotation", .add k!"annotations" false false) /- 119 -/,
      (k!"getDefinitionRef", .get k!"definitionRef") /- 123 -/,
      (k!"setDefinitionRef", .set k!"definitionRef" false) /- 126 -/,
      (k!"getIsAutoValue", .get k!"isAutoValue") /- 130 -/,
      (k!"setIsAutoValue", .set k!"isAutoValue" false) /- 133 -/]⟩
   (.node .nil
    -- M2/AUTOSARTemplates/ECUCDescriptionTemplate.py:276
    k!"EcucReferenceValue" ⟨false, some (0, [.sup 0, .field k!"valueRef" .none]),
     [(k!"getValueRef", .get k!"valueRef") /- 291 -/,
      (k!"setValueRef", .set k!"valueRef" false) /- 294 -/]⟩
    .nil))
  -- M2/AUTOSARTemplates/ECUCParameterDefTemplate.py:1346
  k!"EcucStringParamDef" ⟨false, some (2, [.sup 2]),
     []⟩
  (.node (.node .nil
    -- M2/AUTOSARTemplates/SWComponentTemplate/EndToEndProtection.py:407
    k!"EndToEndProtection" ⟨false, some (2, [.sup 2, .field k!"endToEndProfile" .none, .field k!"endToEndProtectionISignalIPdus" .nil, .field k!"endToEndProtectionVariablePrototypes" .nil]),
     [(k!"getEndToEndProfile", .get k!"endToEndProfile") /- 429 -/,
      (k!"setEndToEndProfile", .set k!"endToEndProfile" true) /- 438 -/,
      (k!"getEndToEndProtectionISignalIPdus", .get k!"endToEndProtectionISignalIPdus") /- 452 -/,
      (k!"addEndToEndProtectionISignalIPdu", .add k!"endToEndProtectionISignalIPdus" true false) /- 461 -/,
      (k!"getEndToEndProtectionVariablePrototypes", .get k!"endToEndProtectionVariablePrototypes") /- 475 -/,
      (k!"addEndToEndProtectionVariablePrototype", .add k!"endToEndProtectionVariablePrototypes" true false) /- 484 -/]⟩
    .nil)
   -- M2/AUTOSARTemplates/SystemTemplate/Fibex/FibexCore/CoreTopology.py:346
   k!"FlexrayChannelName" ⟨false, some (0, [.sup 1]),
     []⟩
   (.node .nil
    -- M2/AUTOSARTemplates/SystemTemplate/Fibex/FibexCore/CoreCommunication.py:2010
    k!"GeneralPurposeIPdu" ⟨false, some (2, [.sup 2]),
     []⟩
    .nil)))
 -- M2/AUTOSARTemplates/EcuResourceTemplate/__init__.py:433
 k!"HwElementConnector" ⟨false, some (0, [.sup 0, .field k!"hwElementRefs" .nil, .field k!"hwPinConnections" .nil, .field k!"hwPinGroupConnections" .nil]),
     [(k!"addHwElementRef", .add k!"hwElementRefs" true false) /- 464 -/,
      (k!"getHwElementRefs", .get k!"hwElementRefs") /- 477 -/,
      (k!"addHwPinConnection", .add k!"hwPinConnections" true false) /- 486 -/,
      (k!"getHwPinConnections", .get k!"hwPinConnections") /- 499 -/,
      (k!"addHwPinGroupConnection", .add k!"hwPinGroupConnections" true false) /- 508 -/,
      (k!"getHwPinGroupConnections", .get k!"hwPinGroupConnections") /- 521 -/]⟩
 (.node (.node (.node .nil
    -- M2/AUTOSARTemplates/SWComponentTemplate/PortInterface/__init__.py:205
    k!"InvalidationPolicy" ⟨false, some (0, [.sup 0, .field k!"dataElementRef" .none, .field k!"handleInvalid" .none]),
     [(k!"getDataElementRef", .get k!"dataElementRef") /- 219 -/,
      (k!"setDataElementRef", .set k!"dataElementRef" false) /- 222 -/,
      (k!"getHandleInvalid", .get k!"handleInvalid") /- 226 -/,
      (k!"setHandleInvalid", .set k!"handleInvalid" false) /- 229 -/]⟩
    .nil)
   -- M2/MSR/Documentation/TextModel/LanguageDataModel.py:195
   k!"LOverviewParagraph" ⟨false, some (0, [.sup 0]),
     []⟩
   (.node .nil
    -- M2/AUTOSARTemplates/SystemTemplate/Fibex/Fibex4Lin/LinCommunication.py:42
    k!"LinFrameTriggering" ⟨false, some (2, [.sup 2, .field k!"identifier" .none, .field k!"linChecksum" .none]),
     [(k!"getIdentifier", .get k!"identifier") /- 62 -/,
      (k!"setIdentifier", .set k!"identifier" true) /- 65 -/,
      (k!"getLinChecksum", .get k!"linChecksum") /- 70 -/,
      (k!"setLinChecksum", .set k!"linChecksum" true) /- 73 -/]⟩
    .nil))
  -- M2/AUTOSARTemplates/SystemTemplate/Fibex/FibexCore/CoreTopology.py:230
  k!"LinPhysicalChannel" ⟨false, some (2, [.sup 2, .field k!"busIdleTimeoutPeriod" .none, .field k!"scheduleTables" .nil]),
     [(k!"getBusIdleTimeoutPeriod", .get k!"busIdleTimeoutPeriod") /- 250 -/,
      (k!"setBusIdleTimeoutPeriod", .set k!"busIdleTimeoutPeriod" true) /- 253 -/,
      (k!"getScheduleTables", .get k!"scheduleTables") /- 258 -/,
      (k!"createLinScheduleTable", .other) /- 261 -/]⟩
  (.node (.node .nil
    -- M2/AUTOSARTemplates/CommonStructure/ResourceConsumption/StackUsage.py:161
    k!"MeasuredStackUsage" ⟨false, some (2, [.sup 2, .field k!"averageMemoryConsumption" .none, .field k!"maximumMemoryConsumption" .none, .field k!"minimumMemoryConsumption" .none, .field k!"testPattern" .none]),
     [(k!"getAverageMemoryConsumption", .get k!"averageMemoryConsumption") /- 201 -/,
      (k!"setAverageMemoryConsumption", .set k!"averageMemoryConsumption" true) /- 210 -/,
      (k!"getMaximumMemoryConsumption", .get k!"maximumMemoryConsumption") /- 225 -/,
      (k!"setMaximumMemoryConsumption", .set k!"maximumMemoryConsumption" true) /- 234 -/,
      (k!"getMinimumMemoryConsumption", .get k!"minimumMemoryConsumption") /- 249 -/,
      (k!"setMinimumMemoryConsumption", .set k!"minimumMemoryConsumption" true) /- 258 -/,
      (k!"getTestPattern", .get k!"testPattern") /- 273 -/,
      (k!"setTestPattern", .set k!"testPattern" true) /- 282 -/]⟩
    .nil)
   -- M2/AUTOSARTemplates/CommonStructure/ModeDeclaration.py:15
   k!"ModeActivationKind" ⟨false, some (0, [.sup 1]),
     []⟩
   (.node .nil
    -- M2/AUTOSARTemplates/SWComponentTemplate/ApplicationAttributes/__init__.py:422
    k!"ModePortAnnotation" ⟨false, some (0, [.sup 0, .field k!"modeGroupRef" .none]),
     [(k!"getModeGroupRef", .get k!"modeGroupRef") /- 440 -/,
      (k!"setModeGroupRef", .set k!"modeGroupRef" true) /- 449 -/]⟩
    .nil))))

def accTable54 : Bst (ClassAcc) :=
 (.node (.node (.node (.node .nil
    -- M2/AUTOSARTemplates/SWComponentTemplate/NvBlockComponent.py:13
    k!"NvBlockDataMapping" ⟨false, some (0, [.sup 0, .field k!"bitfieldTextTableMaskNvBlockDescriptor" .none, .field k!"bitfieldTextTableMaskPortPrototype" .none, .field k!"nvRamBlockElement" .none, .field k!"readNvData" .none, .field k!"writtenNvData" .none, .field k!"writtenReadNvData" .none]),
     [(k!"getBitfieldTextTableMaskNvBlockDescriptor", .get k!"bitfieldTextTableMaskNvBlockDescriptor") /- 56 -/,
      (k!"setBitfieldTextTableMaskNvBlockDescriptor", .set k!"bitfieldTextTableMaskNvBlockDescriptor" true) /- 67 -/,
      (k!"getBitfieldTextTableMaskPortPrototype", .get k!"bitfieldTextTableMaskPortPrototype") /- 84 -/,
      (k!"setBitfieldTextTableMaskPortPrototype", .set k!"bitfieldTextTableMaskPortPrototype" true) /- 95 -/,
      (k!"getNvRamBlockElement", .get k!"nvRamBlockElement") /- 112 -/,
      (k!"setNvRamBlockElement", .set k!"nvRamBlockElement" true) /- 123 -/,
      (k!"getReadNvData", .get k!"readNvData") /- 140 -/,
      (k!"setReadNvData", .set k!"readNvData" true) /- 151 -/,
      (k!"getWrittenNvData", .get k!"writtenNvData") /- 168 -/,
      (k!"setWrittenNvData", .set k!"writtenNvData" true) /- 179 -/,
      (k!"getWrittenReadNvData", .get k!"writtenReadNvData") /- 196 -/,
      (k!"setWrittenReadNvData", .set k!"writtenReadNvData" true) /- 207 -/]⟩
    .nil)
   -- M2/AUTOSARTemplates/CommonStructure/ServiceNeeds.py:3706
   k!"ObdPidServiceNeeds" ⟨false, some (2, [.sup 2]),
     []⟩
   (.node .nil
    -- M2/AUTOSARTemplates/GenericStructure/GeneralTemplateClasses/Identifiable.py:622
    k!"PackageableElement" ⟨true, some (2, [.guard k!"PackageableElement", .sup 2]),
     []⟩
    .nil))
  -- M2/AUTOSARTemplates/SWComponentTemplate/PortInterface/__init__.py:184
  k!"ParameterInterface" ⟨false, some (2, [.sup 2, .field k!"parameters" .nil]),
     [(k!"getParameters", .get k!"parameters") /- 195 -/,
      (k!"createParameterDataPrototype", .other) /- 198 -/]⟩
  (.node (.node .nil
    -- M2/AUTOSARTemplates/SystemTemplate/Fibex/FibexCore/CoreTopology.py:749
    k!"PncGatewayTypeEnum" ⟨false, some (0, [.sup 1]),
     []⟩
    .nil)
   -- M2/AUTOSARTemplates/SWComponentTemplate/ApplicationAttributes/__init__.py:69
   k!"ProcessingKindEnum" ⟨false, some (0, [.sup 1]),
     []⟩
   (.node .nil
    -- M2/AUTOSARTemplates/CommonStructure/MeasurementCalibrationSupport/RptSupport/__init__.py:105
    k!"RptPreparationEnum" ⟨false, some (0, [.sup 1]),
     []⟩
    .nil)))
 -- M2/AUTOSARTemplates/CommonStructure/Constants/__init__.py:1124
 k!"RuleBasedValueCont" ⟨false, some (0, [.sup 0, .field k!"ruleBasedValues" .none, .field k!"swArraysize" .none, .field k!"unitRef" .none]),
     [(k!"getRuleBasedValues", .get k!"ruleBasedValues") /- 1154 -/,
      (k!"setRuleBasedValues", .set k!"ruleBasedValues" true) /- 1163 -/,
      (k!"getSwArraysize", .get k!"swArraysize") /- 1178 -/,
      (k!"setSwArraysize", .set k!"swArraysize" true) /- 1188 -/,
      (k!"getUnitRef", .get k!"unitRef") /- 1204 -/,
      (k!"setUnitRef", .set k!"unitRef" true) /- 1213 -/]⟩
 (.node (.node (.node .nil
    -- M2/AUTOSARTemplates/SystemTemplate/Fibex/Fibex4Lin/LinCommunication.py:95
    k!"ScheduleTableEntry" ⟨true, some (0, [.guard k!"ScheduleTableEntry", .sup 0, .field k!"delay" .none, .field k!"introduction" .none, .field k!"positionInTable" .none]),
     [(k!"getDelay", .get k!"delay") /- 122 -/,
      (k!"setDelay", .set k!"delay" true) /- 125 -/,
      (k!"getIntroduction", .get k!"introduction") /- 130 -/,
      (k!"setIntroduction", .set k!"introduction" true) /- 133 -/,
      (k!"getPositionInTable", .get k!"positionInTable") /- 138 -/,
      (k!"setPositionInTable", .set k!"positionInTable" true) /- 141 -/]⟩
    .nil)
   -- M2/MSR/DataDictionary/Axis.py:7
   k!"SwGenericAxisParam" ⟨false, some (0, [.sup 0, .field k!"swGenericAxisParamTypeRef" .none, .field k!"vfs" .nil]),
     [(k!"getSwGenericAxisParamTypeRef", .get k!"swGenericAxisParamTypeRef") /- 31 -/,
      (k!"setSwGenericAxisParamTypeRef", .set k!"swGenericAxisParamTypeRef" true) /- 37 -/,
      (k!"getVfs", .get k!"vfs") /- 46 -/,
      (k!"addVf", .add k!"vfs" true false) /- 52 -/]⟩
   (.node .nil
    -- M2/AUTOSARTemplates/GenericStructure/VariantHandling/__init__.py:209
    k!"SwSystemconstValue" ⟨false, some (0, [.sup 0, .field k!"annotations" .nil, .field k!"swSystemconstRef" .none, .field k!"value" .none]),
     [(k!"getAnnotations", .get k!"annotations") /- 250 -/,
      (k!"addAnnotation", .add k!"annotations" true false) /- 253 -/,
      (k!"getSwSystemconstRef", .get k!"swSystemconstRef") /- 258 -/,
      (k!"setSwSystemconstRef", .set k!"swSystemconstRef" true) /- 261 -/,
      (k!"getValue", .get k!"value") /- 266 -/,
      (k!"setValue", .set k!"value" true) /- 269 -/]⟩
    .nil))
  -- M2/MSR/DataDictionary/DataDefProperties.py:169
  k!"SwVariableRefProxy" ⟨false, some (0, [.sup 0, .field k!"autosarVariable" .none, .field k!"mcDataInstanceVarRef" .none]),
     [(k!"getAutosarVariable", .get k!"autosarVariable") /- 193 -/,
      (k!"setAutosarVariable", .set k!"autosarVariable" true) /- 199 -/,
      (k!"getMcDataInstanceVarRef", .get k!"mcDataInstanceVarRef") /- 207 -/,
      (k!"setMcDataInstanceVarRef", .set k!"mcDataInstanceVarRef" true) /- 213 -/]⟩
  (.node (.node .nil
    -- M2/AUTOSARTemplates/SWComponentTemplate/SwcInternalBehavior/RTEEvents.py:237
    k!"SwcModeSwitchEvent" ⟨false, some (2, [.sup 2, .field k!"activation" .none, .field k!"modeIRefs" .nil]),
     [(k!"getActivation", .get k!"activation") /- 261 -/,
      (k!"setActivation", .set k!"activation" true) /- 267 -/,
      (k!"addModeIRef", .add k!"modeIRefs" true false) /- 276 -/,
      (k!"getModeIRefs", .get k!"modeIRefs") /- 285 -/]⟩
    .nil)
   -- M2/AUTOSARTemplates/CommonStructure/Timing/TimingCondition/TimingModeInstance.py:5
   k!"TimingModeInstance" ⟨false, some (0, [.sup 0, .field k!"modeRef" .none, .field k!"modeValue" .none]),
     [(k!"getModeRef", .get k!"modeRef") /- 26 -/,
      (k!"setModeRef", .set k!"modeRef" false) /- 35 -/,
      (k!"getModeValue", .get k!"modeValue") /- 48 -/,
      (k!"setModeValue", .set k!"modeValue" false) /- 57 -/]⟩
   (.node .nil
    -- M2/AUTOSARTemplates/CommonStructure/Constants/__init__.py:26
    k!"ValueSpecification" ⟨true, some (0, [.guard k!"ValueSpecification", .sup 0, .field k!"shortLabel" .none]),
     [(k!"getShortLabel", .get k!"shortLabel") /- 48 -/,
      (k!"setShortLabel", .set k!"shortLabel" true) /- 54 -/]⟩
    .nil))))

-- M2/AUTOSARTemplates/CommonStructure/ModeDeclaration.py:195
def accTable55 : Bst (ClassAcc) :=
 .node accTable53 k!"ModeRequestTypeMap" ⟨false, some (0, [.sup 0, .field k!"implementationDataTypeRef" .none, .field k!"modeGroupRef" .none]),
     [(k!"getImplementationDataTypeRef", .get k!"implementationDataTypeRef") /- 219 -/,
      (k!"setImplementationDataTypeRef", .set k!"implementationDataTypeRef" false) /- 228 -/,
      (k!"getModeGroupRef", .get k!"modeGroupRef") /- 242 -/,
      (k!"setModeGroupRef", .set k!"modeGroupRef" false) /- 251 -/]⟩ accTable54

def accTable56 : Bst (ClassAcc) :=
 (.node (.node (.node (.node (.node .nil
     -- M2/AUTOSARTemplates/SWComponentTemplate/SwcInternalBehavior/AccessCount.py:39
     k!"AbstractAccessPoint" ⟨true, some (2, [.guard k!"AbstractAccessPoint", .sup 2, .field k!"returnValueProvision" .none]),
     [(k!"getReturnValueProvision", .get k!"returnValueProvision") /- 61 -/,
      (k!"setReturnValueProvision", .set k!"returnValueProvision" true) /- 72 -/]⟩
     .nil)
    -- M2/AUTOSARTemplates/CommonStructure/FlatMap.py:218
    k!"AliasNameAssignment" ⟨false, some (0, [.sup 0, .field k!"flatInstanceRef" .none, .field k!"identifiableRef" .none, .field k!"label" .none, .field k!"shortLabel" .none]),
     [(k!"getFlatInstanceRef", .get k!"flatInstanceRef") /- 253 -/,
      (k!"setFlatInstanceRef", .set k!"flatInstanceRef" true) /- 262 -/,
      (k!"getIdentifiableRef", .get k!"identifiableRef") /- 278 -/,
      (k!"setIdentifiableRef", .set k!"identifiableRef" true) /- 287 -/,
      (k!"getLabel", .get k!"label") /- 303 -/,
      (k!"setLabel", .set k!"label" true) /- 312 -/,
      (k!"getShortLabel", .get k!"shortLabel") /- 328 -/,
      (k!"setShortLabel", .set k!"shortLabel" true) /- 337 -/]⟩
    .nil)
   -- M2/AUTOSARTemplates/SWComponentTemplate/Datatype/Datatypes.py:45
   k!"ApplicationDataType" ⟨true, some (2, [.guard k!"ApplicationDataType", .sup 2]),
     []⟩
   (.node .nil
    -- M2/AUTOSARTemplates/SystemTemplate/Fibex/Fibex4Ethernet/ServiceInstances.py:1125
    k!"ApplicationEndpoint" ⟨false, some (2, [.sup 2, .field k!"consumedServiceInstances" .nil, .field k!"maxNumberOfConnections" .none, .field k!"networkEndpointRef" .none, .field k!"priority" .none, .field k!"providedServiceInstances" .nil, .field k!"tlsCryptoMappingRef" .none, .field k!"tpConfiguration" .none]),
     [(k!"getConsumedServiceInstances", .get k!"consumedServiceInstances") /- 1160 -/,
      (k!"createConsumedServiceInstance", .other) /- 1163 -/,
      (k!"getMaxNumberOfConnections", .get k!"maxNumberOfConnections") /- 1170 -/,
      (k!"setMaxNumberOfConnections", .set k!"maxNumberOfConnections" false) /- 1173 -/,
      (k!"getNetworkEndpointRef", .get k!"networkEndpointRef") /- 1177 -/,
      (k!"setNetworkEndpointRef", .set k!"networkEndpointRef" false) /- 1180 -/,
      (k!"getPriority", .get k!"priority") /- 1184 -/,
      (k!"setPriority", .set k!"priority" false) /- 1187 -/,
      (k!"getProvidedServiceInstances", .get k!"providedServiceInstances") /- 1191 -/,
      (k!"createProvidedServiceInstance", .other) /- 1194 -/,
      (k!"getTlsCryptoMappingRef", .get k!"tlsCryptoMappingRef") /- 1201 -/,
      (k!"setTlsCryptoMappingRef", .set k!"tlsCryptoMappingRef" false) /- 1204 -/,
      (k!"getTpConfiguration", .get k!"tpConfiguration") /- 1208 -/,
      (k!"setTpConfiguration", .set k!"tpConfiguration" false) /- 1211 -/]⟩
    .nil))
  -- M2/AUTOSARTemplates/CommonStructure/ImplementationDataTypes.py:326
  k!"ArrayImplPolicyEnum" ⟨false, some (0, [.sup 1]),
     []⟩
  (.node (.node .nil
    -- M2/AUTOSARTemplates/SWComponentTemplate/Composition/__init__.py:84
    k!"AssemblySwConnector" ⟨false, some (2, [.sup 2, .field k!"providerIRef" .none, .field k!"requesterIRef" .none]),
     [(k!"getProviderIRef", .get k!"providerIRef") /- 98 -/,
      (k!"setProviderIRef", .set k!"providerIRef" false) /- 101 -/,
      (k!"getRequesterIRef", .get k!"requesterIRef") /- 105 -/,
      (k!"setRequesterIRef", .set k!"requesterIRef" false) /- 108 -/]⟩
    .nil)
   -- M2/AUTOSARTemplates/GenericStructure/AbstractStructure.py:295
   k!"AtpBlueprintMapping" ⟨true, some (0, [.guard k!"AtpBlueprintMapping", .sup 0]),
     []⟩
   (.node .nil
    -- M2/AUTOSARTemplates/GenericStructure/AbstractStructure.py:250
    k!"AtpStructureElement" ⟨true, some (2, [.guard k!"AtpStructureElement", .sup 2]),
     []⟩
    .nil)))
 -- M2/AUTOSARTemplates/SWComponentTemplate/SwcInternalBehavior/InstanceRefsUsage.py:416
 k!"AutosarParameterRef" ⟨false, some (0, [.sup 0, .field k!"autosarParameterIRef" .none, .field k!"localParameterRef" .none]),
     [(k!"getAutosarParameterIRef", .get k!"autosarParameterIRef") /- 434 -/,
      (k!"setAutosarParameterIRef", .set k!"autosarParameterIRef" false) /- 444 -/,
      (k!"getLocalParameterRef", .get k!"localParameterRef") /- 457 -/,
      (k!"setLocalParameterRef", .set k!"localParameterRef" false) /- 466 -/]⟩
 (.node (.node (.node .nil
    -- M2/AUTOSARTemplates/CommonStructure/StandardizationTemplate/BlueprintMapping/BlueprintMappingSet.py:5
    k!"BlueprintMappingSet" ⟨false, some (0, [.sup 0, .field k!"mappings" .nil]),
     [(k!"addMapping", .add k!"mappings" false false) /- 23 -/,
      (k!"getMappings", .get k!"mappings") /- 36 -/]⟩
    .nil)
   -- M2/AUTOSARTemplates/BswModuleTemplate/BswInterfaces.py:70
   k!"BswExecutionContext" ⟨false, some (0, [.sup 1]),
     []⟩
   (.node .nil
    -- M2/AUTOSARTemplates/BswModuleTemplate/BswBehavior/__init__.py:2334
    k!"BswInternalBehavior" ⟨false, some (2, [.sup 2, .field k!"arTypedPerInstanceMemories" .nil, .field k!"bswPerInstanceMemoryPolicies" .nil, .field k!"clientPolicies" .nil, .field k!"distinguishedPartitions" .nil, .field k!"entities" .nil, .field k!"events" .nil, .field k!"exclusiveAreaPolicies" .nil, .field k!"includedDataTypeSets" .nil, .field k!"includedModeDeclarationGroupSets" .nil, .field k!"internalTriggeringPoints" .nil, .field k!"internalTriggeringPointPolicies" .nil, .field k!"modeReceiverPolicies" .nil, .field k!"modeSenderPolicies" .nil, .field k!"parameterPolicies" .nil, .field k!"perInstanceParameters" .nil, .field k!"receptionPolicies" .nil, .field k!"releasedTriggerPolicies" .nil, .field k!"schedulerNamePrefixes" .nil, .field k!"sendPolicies" .nil, .field k!"serviceDependencies" .nil, .field k!"triggerDirectImplementations" .nil, .field k!"variationPointProxies" .nil]),
     [(k!"getArTypedPerInstanceMemories", .get k!"arTypedPerInstanceMemories") /- 2470 -/,
      (k!"setArTypedPerInstanceMemories", .set k!"arTypedPerInstanceMemories" true) /- 2479 -/,
      (k!"getBswPerInstanceMemoryPolicies", .get k!"bswPerInstanceMemoryPolicies") /- 2494 -/,
      (k!"setBswPerInstanceMemoryPolicies", .set k!"bswPerInstanceMemoryPolicies" true) /- 2503 -/,
      (k!"getClientPolicies", .get k!"clientPolicies") /- 2518 -/,
      (k!"setClientPolicies", .set k!"clientPolicies" true) /- 2527 -/,
      (k!"getDistinguishedPartitions", .get k!"distinguishedPartitions") /- 2542 -/,
      (k!"setDistinguishedPartitions", .set k!"distinguishedPartitions" true) /- 2551 -/,
      (k!"getExclusiveAreaPolicies", .get k!"exclusiveAreaPolicies") /- 2566 -/,
      (k!"setExclusiveAreaPolicies", .set k!"exclusiveAreaPolicies" true) /- 2575 -/,
      (k!"getInternalTriggeringPoints", .get k!"internalTriggeringPoints") /- 2590 -/,
      (k!"createBswInternalTriggeringPoint", .other) /- 2599 -/,
      (k!"getInternalTriggeringPointPolicies", .get k!"internalTriggeringPointPolicies") /- 2615 -/,
      (k!"setInternalTriggeringPointPolicies", .set k!"internalTriggeringPointPolicies" true) /- 2624 -/,
      (k!"getModeReceiverPolicies", .get k!"modeReceiverPolicies") /- 2639 -/,
      (k!"setModeSenderPolicies", .set k!"modeSenderPolicies" true) /- 2648 -/,
      (k!"getParameterPolicies", .get k!"parameterPolicies") /- 2663 -/,
      (k!"setParameterPolicies", .set k!"parameterPolicies" true) /- 2672 -/,
      (k!"getPerInstanceParameters", .get k!"perInstanceParameters") /- 2687 -/,
      (k!"setPerInstanceParameters", .set k!"perInstanceParameters" true) /- 2696 -/,
      (k!"getReceptionPolicies", .get k!"receptionPolicies") /- 2711 -/,
      (k!"addReceptionPolicy", .add k!"receptionPolicies" true false) /- 2720 -/,
      (k!"getReleasedTriggerPolicies", .get k!"releasedTriggerPolicies") /- 2735 -/,
      (k!"setReleasedTriggerPolicies", .set k!"releasedTriggerPolicies" true) /- 2744 -/,
      (k!"getSchedulerNamePrefixes", .get k!"schedulerNamePrefixes") /- 2759 -/,
      (k!"setSchedulerNamePrefixes", .set k!"schedulerNamePrefixes" true) /- 2768 -/,
      (k!"getSendPolicies", .get k!"sendPolicies") /- 2783 -/,
      (k!"setSendPolicies", .set k!"sendPolicies" true) /- 2792 -/,
      (k!"getServiceDependencies", .get k!"serviceDependencies") /- 2807 -/,
      (k!"setServiceDependencies", .set k!"serviceDependencies" true) /- 2816 -/,
      (k!"addServiceDependency", .add k!"serviceDependencies" false false) /- 2831 -/,
      (k!"getTriggerDirectImplementations", .get k!"triggerDirectImplementations") /- 2844 -/,
      (k!"setTriggerDirectImplementations", .set k!"triggerDirectImplementations" true) /- 2853 -/,
      (k!"getVariationPointProxies", .get k!"variationPointProxies") /- 2868 -/,
      (k!"setVariationPointProxies", .set k!"variationPointProxies" true) /- 2877 -/,
      (k!"addModeSenderPolicy", .add k!"modeSenderPolicies" false false) /- 2892 -/,
      (k!"getModeSenderPolicies", .get k!"modeSenderPolicies") /- 2901 -/,
      (k!"createBswCalledEntity", .other) /- 2910 -/,
      (k!"getBswCalledEntities", .other) /- 2926 -/,
      (k!"createBswSchedulableEntity", .other) /- 2935 -/,
      (k!"getBswSchedulableEntities", .other) /- 2951 -/,
      (k!"createBswInterruptEntity", .other) /- 2960 -/,
      (k!"getBswInterruptEntities", .other) /- 2976 -/,
      (k!"getBswModuleEntities", .other) /- 2985 -/,
      (k!"createBswModeSwitchEvent", .other) /- 2994 -/,
      (k!"getBswModeSwitchEvents", .other) /- 3010 -/,
      (k!"createBswTimingEvent", .other) /- 3019 -/,
      (k!"getBswTimingEvents", .other) /- 3035 -/,
      (k!"createBswDataReceivedEvent", .other) /- 3044 -/,
      (k!"getBswDataReceivedEvents", .other) /- 3060 -/,
      (k!"createBswInternalTriggerOccurredEvent", .other) /- 3069 -/,
      (k!"getBswInternalTriggerOccurredEvents", .other) /- 3085 -/,
      (k!"createBswExternalTriggerOccurredEvent", .other) /- 3094 -/,
      (k!"getBswOperationInvokedEvents", .other) /- 3110 -/,
      (k!"createBswOperationInvokedEvent", .other) /- 3119 -/,
      (k!"getBswExternalTriggerOccurredEvents", .other) /- 3135 -/,
      (k!"createBswBackgroundEvent", .other) /- 3144 -/,
      (k!"getBswBackgroundEvents", .other) /- 3160 -/,
      (k!"createBswModeManagerErrorEvent", .other) /- 3169 -/,
      (k!"getBswModeManagerErrorEvents", .other) /- 3185 -/,
      (k!"createBswModeSwitchedAckEvent", .other) /- 3194 -/,
      (k!"getBswModeSwitchedAckEvents", .other) /- 3210 -/,
      (k!"createBswAsynchronousServerCallReturnsEvent", .other) /- 3219 -/,
      (k!"getBswAsynchronousServerCallReturnsEvents", .other) /- 3235 -/,
      (k!"getBswEvents", .other) /- 3244 -/,
      (k!"addIncludedModeDeclarationGroupSet", .add k!"includedModeDeclarationGroupSets" false false) /- 3253 -/,
      (k!"getIncludedModeDeclarationGroupSets", .get k!"includedModeDeclarationGroupSets") /- 3262 -/,
      (k!"addIncludedDataTypeSet", .add k!"includedDataTypeSets" false false) /- 3271 -/,
      (k!"getIncludedDataTypeSets", .get k!"includedDataTypeSets") /- 3280 -/]⟩
    .nil))
  -- M2/AUTOSARTemplates/BswModuleTemplate/BswBehavior/__init__.py:1476
  k!"BswModeSenderPolicy" ⟨false, some (0, [.sup 0, .field k!"ackRequest" .none, .field k!"enhancedModeApi" .none, .field k!"providedModeGroupRef" .none, .field k!"queueLength" .none]),
     [(k!"getAckRequest", .get k!"ackRequest") /- 1521 -/,
      (k!"setAckRequest", .set k!"ackRequest" true) /- 1530 -/,
      (k!"getEnhancedModeApi", .get k!"enhancedModeApi") /- 1544 -/,
      (k!"setEnhancedModeApi", .set k!"enhancedModeApi" true) /- 1554 -/,
      (k!"getProvidedModeGroupRef", .get k!"providedModeGroupRef") /- 1569 -/,
      (k!"setProvidedModeGroupRef", .set k!"providedModeGroupRef" true) /- 1578 -/,
      (k!"getQueueLength", .get k!"queueLength") /- 1593 -/,
      (k!"setQueueLength", .set k!"queueLength" true) /- 1602 -/]⟩
  (.node (.node .nil
    -- M2/AUTOSARTemplates/BswModuleTemplate/BswInterfaces.py:129
    k!"BswModuleDependency" ⟨false, some (2, [.sup 2, .field k!"targetModuleId" .none, .field k!"targetModuleRef" .none]),
     [(k!"getTargetModuleId", .get k!"targetModuleId") /- 159 -/,
      (k!"setTargetModuleId", .set k!"targetModuleId" true) /- 168 -/,
      (k!"getTargetModuleRef", .get k!"targetModuleRef") /- 183 -/,
      (k!"setTargetModuleRef", .set k!"targetModuleRef" true) /- 192 -/]⟩
    .nil)
   -- M2/MSR/AsamHdo/ComputationMethod.py:218
   k!"CompuRationalCoeffs" ⟨false, some (0, [.sup 0, .field k!"compuDenominator" .none, .field k!"compuNumerator" .none]),
     [(k!"getCompuDenominator", .get k!"compuDenominator") /- 238 -/,
      (k!"setCompuDenominator", .set k!"compuDenominator" false) /- 241 -/,
      (k!"getCompuNumerator", .get k!"compuNumerator") /- 245 -/,
      (k!"setCompuNumerator", .set k!"compuNumerator" false) /- 248 -/]⟩
   (.node .nil
    -- M2/AUTOSARTemplates/SystemTemplate/Fibex/Fibex4Ethernet/EthernetTopology.py:246
    k!"CouplingPortDetails" ⟨false, some (0, [.sup 0, .field k!"couplingPortStructuralElements" .nil, .field k!"defaultTrafficClass" .none, .field k!"ethernetPriorityRegenerations" .nil, .field k!"ethernetTrafficClassAssignments" .nil, .field k!"framePreemptionSupport" .none, .field k!"globalTimeProps" .none, .field k!"lastEgressSchedulerRef" .none, .field k!"ratePolicies" .nil, .field k!"vlanTranslationTables" .nil]),
     [(k!"getCouplingPortStructuralElements", .get k!"couplingPortStructuralElements") /- 289 -/,
      (k!"createCouplingPortFifo", .other) /- 292 -/,
      (k!"createCouplingPortScheduler", .other) /- 297 -/,
      (k!"createEthernetPriorityRegeneration", .other) /- 302 -/,
      (k!"getDefaultTrafficClass", .get k!"defaultTrafficClass") /- 307 -/,
      (k!"setDefaultTrafficClass", .set k!"defaultTrafficClass" true) /- 310 -/,
      (k!"getEthernetPriorityRegenerations", .get k!"ethernetPriorityRegenerations") /- 315 -/,
      (k!"setEthernetPriorityRegenerations", .set k!"ethernetPriorityRegenerations" true) /- 318 -/,
      (k!"getEthernetTrafficClassAssignments", .get k!"ethernetTrafficClassAssignments") /- 323 -/,
      (k!"setEthernetTrafficClassAssignments", .set k!"ethernetTrafficClassAssignments" true) /- 326 -/,
      (k!"getFramePreemptionSupport", .get k!"framePreemptionSupport") /- 331 -/,
      (k!"setFramePreemptionSupport", .set k!"framePreemptionSupport" true) /- 334 -/,
      (k!"getGlobalTimeProps", .get k!"globalTimeProps") /- 339 -/,
      (k!"setGlobalTimeProps", .set k!"globalTimeProps" true) /- 342 -/,
      (k!"getLastEgressSchedulerRef", .get k!"lastEgressSchedulerRef") /- 347 -/,
      (k!"setLastEgressSchedulerRef", .set k!"lastEgressSchedulerRef" true) /- 350 -/,
      (k!"getRatePolicies", .get k!"ratePolicies") /- 355 -/,
      (k!"setRatePolicies", .set k!"ratePolicies" true) /- 358 -/,
      (k!"getVlanTranslationTables", .get k!"vlanTranslationTables") /- 363 -/,
      (k!"setVlanTranslationTables", .set k!"vlanTranslationTables" true) /- 366 -/]⟩
    .nil))))

def accTable57 : Bst (ClassAcc) :=
 (.node (.node (.node (.node .nil
    -- M2/AUTOSARTemplates/SystemTemplate/Fibex/Fibex4Multiplatform.py:97
    k!"DefaultValueElement" ⟨false, some (0, [.sup 0, .field k!"elementByteValue" .none, .field k!"elementPosition" .none]),
     [(k!"getElementByteValue", .get k!"elementByteValue") /- 116 -/,
      (k!"setElementByteValue", .set k!"elementByteValue" true) /- 119 -/,
      (k!"getElementPosition", .get k!"elementPosition") /- 124 -/,
      (k!"setElementPosition", .set k!"elementPosition" true) /- 127 -/]⟩
    .nil)
   -- M2/AUTOSARTemplates/CommonStructure/Implementation.py:21
   k!"DependencyUsageEnum" ⟨false, some (0, [.sup 1]),
     []⟩
   (.node .nil
    -- M2/AUTOSARTemplates/GenericStructure/GeneralTemplateClasses/PrimitiveTypes.py:440
    k!"DisplayFormatString" ⟨false, some (0, [.sup 0]),
     []⟩
    .nil))
  -- M2/AUTOSARTemplates/ECUCParameterDefTemplate.py:1878
  k!"EcucAddInfoParamDef" ⟨false, some (2, [.sup 2]),
     []⟩
  (.node (.node .nil
    -- M2/AUTOSARTemplates/ECUCParameterDefTemplate.py:905
    k!"EcucBooleanParamDef" ⟨false, some (2, [.sup 2, .field k!"defaultValue" .none]),
     [(k!"getDefaultValue", .get k!"defaultValue") /- 921 -/,
      (k!"setDefaultValue", .set k!"defaultValue" true) /- 924 -/]⟩
    .nil)
   -- M2/AUTOSARTemplates/ECUCParameterDefTemplate.py:1360
   k!"EcucFunctionNameDef" ⟨false, some (2, [.sup 2]),
     []⟩
   (.node .nil
    -- M2/AUTOSARTemplates/ECUCParameterDefTemplate.py:1374
    k!"EcucIntegerParamDef" ⟨false, some (2, [.sup 2, .field k!"defaultValue" .none, .field k!"max" .none, .field k!"min" .none]),
     [(k!"getDefaultValue", .get k!"defaultValue") /- 1396 -/,
      (k!"setDefaultValue", .set k!"defaultValue" true) /- 1399 -/,
      (k!"getMax", .get k!"max") /- 1404 -/,
      (k!"setMax", .set k!"max" true) /- 1407 -/,
      (k!"getMin", .get k!"min") /- 1412 -/,
      (k!"setMin", .set k!"min" true) /- 1415 -/]⟩
    .nil)))
 -- M2/AUTOSARTemplates/ECUCParameterDefTemplate.py:2179
 k!"EcucLinkerSymbolDef" ⟨false, some (2, [.sup 2]),
     []⟩
 (.node (.node (.node .nil
    -- M2/AUTOSARTemplates/ECUCParameterDefTemplate.py:2295
    k!"EcucQueryExpression" ⟨false, some (0, [.sup 0, .field k!"configElementDefGlobalRef" .none, .field k!"configElementDefLocalRef" .none]),
     [(k!"getConfigElementDefGlobalRef", .get k!"configElementDefGlobalRef") /- 2318 -/,
      (k!"setConfigElementDefGlobalRef", .set k!"configElementDefGlobalRef" true) /- 2324 -/,
      (k!"getConfigElementDefLocalRef", .get k!"configElementDefLocalRef") /- 2333 -/,
      (k!"setConfigElementDefLocalRef", .set k!"configElementDefLocalRef" true) /- 2339 -/]⟩
    .nil)
   -- M2/AUTOSARTemplates/ECUCParameterDefTemplate.py:1124
   k!"EcucUriReferenceDef" ⟨false, some (2, [.sup 2, .field k!"destinationUriRef" .none]),
     [(k!"getDestinationUriRef", .get k!"destinationUriRef") /- 1140 -/,
      (k!"setDestinationUriRef", .set k!"destinationUriRef" true) /- 1146 -/]⟩
   (.node .nil
    -- M2/AUTOSARTemplates/ECUCDescriptionTemplate.py:19
    k!"EcucValueCollection" ⟨false, some (2, [.sup 2, .field k!"ecucValueRefs" .nil, .field k!"ecuExtractRef" .none]),
     [(k!"getEcucValueRefs", .get k!"ecucValueRefs") /- 37 -/,
      (k!"addEcucValueRef", .add k!"ecucValueRefs" false false) /- 40 -/,
      (k!"getEcuExtractRef", .get k!"ecuExtractRef") /- 44 -/,
      (k!"setEcuExtractRef", .set k!"ecuExtractRef" false) /- 47 -/]⟩
    .nil))
  -- M2/AUTOSARTemplates/SWComponentTemplate/EndToEndProtection.py:15
  k!"EndToEndDescription" ⟨false, some (0, [.sup 0, .field k!"category" .none, .field k!"counterOffset" .none, .field k!"crcOffset" .none, .field k!"dataIds" .nil, .field k!"dataIdMode" .none, .field k!"dataIdNibbleOffset" .none, .field k!"dataLength" .none, .field k!"maxDeltaCounterInit" .none, .field k!"maxNoNewOrRepeatedData" .none, .field k!"syncCounterInit" .none]),
     [(k!"getCategory", .get k!"category") /- 58 -/,
      (k!"setCategory", .set k!"category" false) /- 67 -/,
      (k!"getCounterOffset", .get k!"counterOffset") /- 80 -/,
      (k!"setCounterOffset", .set k!"counterOffset" false) /- 89 -/,
      (k!"getCrcOffset", .get k!"crcOffset") /- 102 -/,
      (k!"setCrcOffset", .set k!"crcOffset" false) /- 111 -/,
      (k!"getDataIds", .get k!"dataIds") /- 124 -/,
      (k!"addDataId", .add k!"dataIds" false false) /- 134 -/,
      (k!"getDataIdMode", .get k!"dataIdMode") /- 147 -/,
      (k!"setDataIdMode", .set k!"dataIdMode" false) /- 156 -/,
      (k!"getDataIdNibbleOffset", .get k!"dataIdNibbleOffset") /- 169 -/,
      (k!"setDataIdNibbleOffset", .set k!"dataIdNibbleOffset" false) /- 178 -/,
      (k!"getDataLength", .get k!"dataLength") /- 191 -/,
      (k!"setDataLength", .set k!"dataLength" false) /- 200 -/,
      (k!"getMaxDeltaCounterInit", .get k!"maxDeltaCounterInit") /- 213 -/,
      (k!"setMaxDeltaCounterInit", .set k!"maxDeltaCounterInit" false) /- 222 -/,
      (k!"getMaxNoNewOrRepeatedData", .get k!"maxNoNewOrRepeatedData") /- 235 -/,
      (k!"setMaxNoNewOrRepeatedData", .set k!"maxNoNewOrRepeatedData" false) /- 244 -/,
      (k!"getSyncCounterInit", .get k!"syncCounterInit") /- 257 -/,
      (k!"setSyncCounterInit", .set k!"syncCounterInit" false) /- 266 -/]⟩
  (.node (.node .nil
    -- M2/AUTOSARTemplates/EcuResourceTemplate/__init__.py:17
    k!"HwDescriptionEntity" ⟨false, some (2, [.guard k!"HwDescriptionEntity", .sup 2, .field k!"hwAttributeValues" .nil, .field k!"hwCategoryRefs" .nil, .field k!"hwTypeRef" .none]),
     [(k!"addHwAttributeValue", .add k!"hwAttributeValues" true false) /- 47 -/,
      (k!"getHwAttributeValues", .get k!"hwAttributeValues") /- 60 -/,
      (k!"addHwCategoryRef", .add k!"hwCategoryRefs" true false) /- 69 -/,
      (k!"getHwCategoryRefs", .get k!"hwCategoryRefs") /- 82 -/,
      (k!"getHwTypeRef", .get k!"hwTypeRef") /- 91 -/,
      (k!"setHwTypeRef", .set k!"hwTypeRef" true) /- 100 -/]⟩
    .nil)
   -- M2/AUTOSARTemplates/EcuResourceTemplate/__init__.py:362
   k!"HwPinGroupConnector" ⟨false, some (0, [.sup 0, .field k!"hwPinConnections" .nil, .field k!"hwPinGroupRefs" .nil]),
     [(k!"addHwPinConnection", .add k!"hwPinConnections" true false) /- 388 -/,
      (k!"getHwPinConnections", .get k!"hwPinConnections") /- 401 -/,
      (k!"addHwPinGroupRef", .add k!"hwPinGroupRefs" true false) /- 410 -/,
      (k!"getHwPinGroupRefs", .get k!"hwPinGroupRefs") /- 423 -/]⟩
   (.node .nil
    -- M2/AUTOSARTemplates/CommonStructure/Implementation.py:85
    k!"ImplementationProps" ⟨true, some (2, [.guard k!"ImplementationProps", .sup 2, .field k!"symbol" .none]),
     [(k!"getSymbol", .get k!"symbol") /- 115 -/,
      (k!"setSymbol", .set k!"symbol" true) /- 125 -/]⟩
    .nil))))

-- M2/AUTOSARTemplates/SystemTemplate/Fibex/FibexCore/CoreTopology.py:58
def accTable58 : Bst (ClassAcc) :=
 .node accTable56 k!"CycleRepetitionType" ⟨false, some (0, [.sup 1]),
     []⟩ accTable57

-- M2/AUTOSARTemplates/CommonStructure/ResourceConsumption/HeapUsage.py:318
def accTable59 : Bst (ClassAcc) :=
 .node accTable55 k!"WorstCaseHeapUsage" ⟨false, some (2, [.sup 2, .field k!"memoryConsumption" .none]),
     [(k!"getMemoryConsumption", .get k!"memoryConsumption") /- 343 -/,
      (k!"setMemoryConsumption", .set k!"memoryConsumption" true) /- 352 -/]⟩ accTable58

-- M2/MSR/Documentation/TextModel/BlockElements/__init__.py:22
def accTable60 : Bst (ClassAcc) :=
 .node accTable52 k!"DocumentationBlock" ⟨false, some (0, [.sup 0, .field k!"defList" .none, .field k!"figures" .nil, .field k!"formula" .none, .field k!"labeledList" .none, .field k!"lists" .nil, .field k!"msrQueryP2" .none, .field k!"note" .none, .field k!"ps" .nil, .field k!"structuredReq" .none, .field k!"trace" .none, .field k!"verbatim" .none]),
     [(k!"getDefList", .get k!"defList") /- 91 -/,
      (k!"setDefList", .set k!"defList" true) /- 100 -/,
      (k!"addFigure", .add k!"figures" true false) /- 111 -/,
      (k!"getFigures", .get k!"figures") /- 122 -/,
      (k!"getFormula", .get k!"formula") /- 131 -/,
      (k!"setFormula", .set k!"formula" true) /- 140 -/,
      (k!"getLabeledList", .get k!"labeledList") /- 151 -/,
      (k!"setLabeledList", .set k!"labeledList" true) /- 160 -/,
      (k!"addList", .add k!"lists" true false) /- 171 -/,
      (k!"getLists", .get k!"lists") /- 182 -/,
      (k!"getMsrQueryP2", .get k!"msrQueryP2") /- 191 -/,
      (k!"setMsrQueryP2", .set k!"msrQueryP2" true) /- 200 -/,
      (k!"getNote", .get k!"note") /- 211 -/,
      (k!"setNote", .set k!"note" true) /- 220 -/,
      (k!"addP", .add k!"ps" true false) /- 231 -/,
      (k!"getPs", .get k!"ps") /- 242 -/,
      (k!"getStructuredReq", .get k!"structuredReq") /- 251 -/,
      (k!"setStructuredReq", .set k!"structuredReq" true) /- 260 -/,
      (k!"getTrace", .get k!"trace") /- 271 -/,
      (k!"setTrace", .set k!"trace" true) /- 280 -/,
      (k!"getVerbatim", .get k!"verbatim") /- 291 -/,
      (k!"setVerbatim", .set k!"verbatim" true) /- 300 -/]⟩ accTable59

-- M2/AUTOSARTemplates/BswModuleTemplate/BswBehavior/__init__.py:312
def accTable61 : Bst (ClassAcc) :=
 .node accTable45 k!"BswVariableAccess" ⟨false, some (2, [.sup 2, .field k!"accessedVariableRef" .none, .field k!"contextLimitationRefs" .nil]),
     [(k!"getAccessedVariableRef", .get k!"accessedVariableRef") /- 340 -/,
      (k!"setAccessedVariableRef", .set k!"accessedVariableRef" false) /- 349 -/,
      (k!"getContextLimitationRefs", .get k!"contextLimitationRefs") /- 362 -/,
      (k!"addContextLimitationRef", .add k!"contextLimitationRefs" false false) /- 371 -/]⟩ accTable60

-- M2/AUTOSARTemplates/SWComponentTemplate/SwcInternalBehavior/AccessCount.py:165
def accTable62 : Bst (ClassAcc) :=
 .node accTable30 k!"AccessCountSet" ⟨false, some (0, [.sup 0, .field k!"accessCounts" .nil, .field k!"countProfile" .none]),
     [(k!"addAccessCount", .add k!"accessCounts" true false) /- 193 -/,
      (k!"getAccessCounts", .get k!"accessCounts") /- 208 -/,
      (k!"getCountProfile", .get k!"countProfile") /- 217 -/,
      (k!"setCountProfile", .set k!"countProfile" true) /- 226 -/]⟩ accTable61

def accTable63 : Bst (ClassAcc) :=
 (.node (.node (.node (.node (.node .nil
     -- M2/AUTOSARTemplates/SystemTemplate/DataMapping.py:234
     k!"IndexedArrayElement" ⟨false, some (0, [.sup 0, .field k!"applicationArrayElementRef" .none, .field k!"implementationArrayElementRef" .none, .field k!"index" .none]),
     [(k!"getApplicationArrayElementRef", .get k!"applicationArrayElementRef") /- 257 -/,
      (k!"setApplicationArrayElementRef", .set k!"applicationArrayElementRef" true) /- 260 -/,
      (k!"getImplementationArrayElementRef", .get k!"implementationArrayElementRef") /- 265 -/,
      (k!"setImplementationArrayElementRef", .set k!"implementationArrayElementRef" true) /- 268 -/,
      (k!"getIndex", .get k!"index") /- 273 -/,
      (k!"setIndex", .set k!"index" true) /- 276 -/]⟩
     .nil)
    -- M2/AUTOSARTemplates/CommonStructure/ServiceNeeds.py:3435
    k!"J1939DcmDm19Support" ⟨false, some (2, [.sup 2]),
     []⟩
    .nil)
   -- M2/AUTOSARTemplates/CommonStructure/MeasurementCalibrationSupport/__init__.py:288
   k!"McDataAccessDetails" ⟨false, some (0, [.sup 0, .field k!"rteEventIRefs" .nil, .field k!"variableAccessIRefs" .nil]),
     [(k!"addRteEventIRef", .add k!"rteEventIRefs" true false) /- 315 -/,
      (k!"getRteEventIRefs", .get k!"rteEventIRefs") /- 330 -/,
      (k!"addVariableAccessIRef", .add k!"variableAccessIRefs" true false) /- 340 -/,
      (k!"getVariableAccessIRefs", .get k!"variableAccessIRefs") /- 355 -/]⟩
   (.node .nil
    -- M2/AUTOSARTemplates/SWComponentTemplate/PortInterface/__init__.py:741
    k!"ModeSwitchInterface" ⟨false, some (2, [.sup 2, .field k!"modeGroup" .none]),
     [(k!"createModeGroup", .other) /- 760 -/,
      (k!"getModeGroup", .get k!"modeGroup") /- 780 -/]⟩
    .nil))
  -- M2/AUTOSARTemplates/CommonStructure/ServiceNeeds.py:3548
  k!"ObdInfoServiceNeeds" ⟨false, some (2, [.sup 2]),
     []⟩
  (.node (.node .nil
    -- M2/AUTOSARTemplates/GenericStructure/GeneralTemplateClasses/PrimitiveTypes.py:498
    k!"PrimitiveIdentifier" ⟨false, some (0, [.sup 0]),
     []⟩
    .nil)
   -- M2/AUTOSARTemplates/SWComponentTemplate/Communication.py:537
   k!"QueuedSenderComSpec" ⟨false, some (0, [.sup 0]),
     []⟩
   (.node .nil
    -- M2/AUTOSARTemplates/CommonStructure/InternalBehavior.py:17
    k!"ReentrancyLevelEnum" ⟨false, some (0, [.sup 1]),
     []⟩
    .nil)))
 -- M2/AUTOSARTemplates/CommonStructure/ResourceConsumption/__init__.py:218
 k!"ResourceConsumption" ⟨false, some (2, [.sup 2, .field k!"accessCountSets" .nil, .field k!"executionTimes" .nil, .field k!"heapUsages" .nil, .field k!"memorySections" .nil, .field k!"sectionNamePrefixes" .nil, .field k!"stackUsages" .nil]),
     [(k!"addAccessCountSet", .add k!"accessCountSets" true false) /- 277 -/,
      (k!"getAccessCountSets", .get k!"accessCountSets") /- 291 -/,
      (k!"createAnalyzedExecutionTime", .other) /- 300 -/,
      (k!"createMeasuredExecutionTime", .other) /- 316 -/,
      (k!"createRoughEstimateOfExecutionTime", .other) /- 332 -/,
      (k!"createSimulatedExecutionTime", .other) /- 348 -/,
      (k!"getExecutionTimes", .other) /- 364 -/,
      (k!"createMeasuredHeapUsage", .other) /- 375 -/,
      (k!"createRoughEstimateHeapUsage", .other) /- 391 -/,
      (k!"createWorstCaseHeapUsage", .other) /- 407 -/,
      (k!"getHeapUsages", .other) /- 423 -/,
      (k!"createMemorySection", .other) /- 432 -/,
      (k!"getMemorySections", .other) /- 448 -/,
      (k!"getMemorySection", .other) /- 457 -/,
      (k!"createSectionNamePrefix", .other) /- 469 -/,
      (k!"getSectionNamePrefixes", .other) /- 485 -/,
      (k!"createMeasuredStackUsage", .other) /- 494 -/,
      (k!"createRoughEstimateStackUsage", .other) /- 510 -/,
      (k!"createWorstCaseStackUsage", .other) /- 526 -/,
      (k!"getStackUsages", .other) /- 542 -/]⟩
 (.node (.node (.node .nil
    -- M2/AUTOSARTemplates/GenericStructure/GeneralTemplateClasses/PrimitiveTypes.py:891
    k!"RevisionLabelString" ⟨false, none,
     []⟩
    .nil)
   -- M2/AUTOSARTemplates/CommonStructure/MeasurementCalibrationSupport/RptSupport/__init__.py:641
   k!"RptExecutableEntity" ⟨false, some (2, [.sup 2, .field k!"rptExecutableEntityEvents" .nil, .field k!"rptReads" .nil, .field k!"rptWrites" .nil, .field k!"symbol" .none]),
     [(k!"createRptExecutableEntityEvent", .other) /- 681 -/,
      (k!"getRptExecutableEntityEvents", .get k!"rptExecutableEntityEvents") /- 699 -/,
      (k!"addRptRead", .add k!"rptReads" true false) /- 708 -/,
      (k!"getRptReads", .get k!"rptReads") /- 723 -/,
      (k!"addRptWrite", .add k!"rptWrites" true false) /- 732 -/,
      (k!"getRptWrites", .get k!"rptWrites") /- 747 -/,
      (k!"getSymbol", .get k!"symbol") /- 756 -/,
      (k!"setSymbol", .set k!"symbol" true) /- 765 -/]⟩
   (.node .nil
    -- M2/AUTOSARTemplates/CommonStructure/MeasurementCalibrationSupport/RptSupport/__init__.py:138
    k!"RptExecutionContext" ⟨false, some (2, [.sup 2]),
     []⟩
    .nil))
  -- M2/AUTOSARTemplates/SWComponentTemplate/RPTScenario.py:42
  k!"RptServicePointEnum" ⟨false, some (0, [.sup 1]),
     []⟩
  (.node (.node .nil
    -- M2/AUTOSARTemplates/SWComponentTemplate/ImplicitCommunicationBehavior/__init__.py:106
    k!"RunnableEntityGroup" ⟨false, some (2, [.sup 2, .field k!"runnableEntityIRefs" .nil, .field k!"runnableEntityGroupIRefs" .nil]),
     [(k!"addRunnableEntityIRef", .add k!"runnableEntityIRefs" true false) /- 135 -/,
      (k!"getRunnableEntityIRefs", .get k!"runnableEntityIRefs") /- 151 -/,
      (k!"addRunnableEntityGroupIRef", .add k!"runnableEntityGroupIRefs" true false) /- 162 -/,
      (k!"getRunnableEntityGroupIRefs", .get k!"runnableEntityGroupIRefs") /- 178 -/]⟩
    .nil)
   -- M2/AUTOSARTemplates/CommonStructure/ServiceNeeds.py:3989
   k!"ServiceProviderEnum" ⟨false, some (0, [.sup 1]),
     []⟩
   (.node .nil
    -- M2/MSR/DataDictionary/DataDefProperties.py:116
    k!"SwBitRepresentation" ⟨false, some (0, [.sup 0, .field k!"bitPosition" .none, .field k!"numberOfBits" .none]),
     [(k!"getBitPosition", .get k!"bitPosition") /- 140 -/,
      (k!"setBitPosition", .set k!"bitPosition" true) /- 146 -/,
      (k!"getNumberOfBits", .get k!"numberOfBits") /- 154 -/,
      (k!"setNumberOfBits", .set k!"numberOfBits" true) /- 160 -/]⟩
    .nil))))

def accTable64 : Bst (ClassAcc) :=
 (.node (.node (.node (.node (.node .nil
     -- M2/AUTOSARTemplates/SWComponentTemplate/SwcInternalBehavior/__init__.py:772
     k!"SwcInternalBehavior" ⟨false, some (2, [.sup 2, .field k!"arTypedPerInstanceMemories" .nil, .field k!"events" .nil, .field k!"exclusiveAreaPolicies" .nil, .field k!"explicitInterRunnableVariables" .nil, .field k!"handleTerminationAndRestart" .none, .field k!"implicitInterRunnableVariables" .nil, .field k!"includedDataTypeSets" .nil, .field k!"includedModeDeclarationGroupSets" .nil, .field k!"instantiationDataDefProps" .nil, .field k!"perInstanceMemories" .nil, .field k!"perInstanceParameters" .nil, .field k!"portAPIOptions" .nil, .field k!"runnables" .nil, .field k!"serviceDependencies" .nil, .field k!"sharedParameters" .nil, .field k!"supportsMultipleInstantiation" .none, .field k!"variationPointProxies" .nil]),
     [(k!"getArTypedPerInstanceMemories", .get k!"arTypedPerInstanceMemories") /- 909 -/,
      (k!"createArTypedPerInstanceMemory", .other) /- 913 -/,
      (k!"getExplicitInterRunnableVariables", .get k!"explicitInterRunnableVariables") /- 921 -/,
      (k!"createExplicitInterRunnableVariable", .other) /- 925 -/,
      (k!"getHandleTerminationAndRestart", .get k!"handleTerminationAndRestart") /- 933 -/,
      (k!"setHandleTerminationAndRestart", .set k!"handleTerminationAndRestart" true) /- 937 -/,
      (k!"getImplicitInterRunnableVariables", .get k!"implicitInterRunnableVariables") /- 947 -/,
      (k!"createImplicitInterRunnableVariable", .other) /- 951 -/,
      (k!"getPerInstanceMemories", .get k!"perInstanceMemories") /- 959 -/,
      (k!"createPerInstanceMemory", .other) /- 963 -/,
      (k!"getPerInstanceParameters", .get k!"perInstanceParameters") /- 971 -/,
      (k!"createPerInstanceParameter", .other) /- 975 -/,
      (k!"getSharedParameters", .get k!"sharedParameters") /- 983 -/,
      (k!"createSharedParameter", .other) /- 987 -/,
      (k!"addPortAPIOption", .add k!"portAPIOptions" true false) /- 995 -/,
      (k!"getPortAPIOptions", .get k!"portAPIOptions") /- 1004 -/,
      (k!"addIncludedDataTypeSet", .add k!"includedDataTypeSets" true false) /- 1008 -/,
      (k!"getIncludedDataTypeSets", .get k!"includedDataTypeSets") /- 1018 -/,
      (k!"addIncludedModeDeclarationGroupSet", .add k!"includedModeDeclarationGroupSets" true false) /- 1022 -/,
      (k!"getIncludedModeDeclarationGroupSets", .get k!"includedModeDeclarationGroupSets") /- 1032 -/,
      (k!"addExclusiveAreaPolicy", .add k!"exclusiveAreaPolicies" true false) /- 1036 -/,
      (k!"getExclusiveAreaPolicies", .get k!"exclusiveAreaPolicies") /- 1046 -/,
      (k!"createOperationInvokedEvent", .other) /- 1050 -/,
      (k!"createTimingEvent", .other) /- 1057 -/,
      (k!"createInitEvent", .other) /- 1064 -/,
      (k!"createAsynchronousServerCallReturnsEvent", .other) /- 1071 -/,
      (k!"createDataReceivedEvent", .other) /- 1078 -/,
      (k!"createSwcModeSwitchEvent", .other) /- 1085 -/,
      (k!"createInternalTriggerOccurredEvent", .other) /- 1092 -/,
      (k!"createModeSwitchedAckEvent", .other) /- 1099 -/,
      (k!"createBackgroundEvent", .other) /- 1106 -/,
      (k!"createDataSendCompletedEvent", .other) /- 1113 -/,
      (k!"createSwcServiceDependency", .other) /- 1120 -/,
      (k!"getRteEvents", .other) /- 1127 -/,
      (k!"getOperationInvokedEvents", .other) /- 1131 -/,
      (k!"getInitEvents", .other) /- 1135 -/,
      (k!"getTimingEvents", .other) /- 1139 -/,
      (k!"getDataReceivedEvents", .other) /- 1143 -/,
      (k!"getSwcModeSwitchEvents", .other) /- 1147 -/,
      (k!"getInternalTriggerOccurredEvents", .other) /- 1151 -/,
      (k!"getModeSwitchedAckEvents", .other) /- 1155 -/,
      (k!"getBackgroundEvents", .other) /- 1159 -/,
      (k!"getDataSendCompletedEvents", .other) /- 1163 -/,
      (k!"getSwcServiceDependencies", .other) /- 1167 -/,
      (k!"getEvent", .other) /- 1171 -/,
      (k!"getVariableDataPrototypes", .other) /- 1175 -/,
      (k!"createRunnableEntity", .other) /- 1179 -/,
      (k!"getRunnableEntities", .other) /- 1186 -/,
      (k!"getRunnableEntity", .other) /- 1190 -/,
      (k!"getSupportsMultipleInstantiation", .get k!"supportsMultipleInstantiation") /- 1194 -/,
      (k!"setSupportsMultipleInstantiation", .set k!"supportsMultipleInstantiation" true) /- 1201 -/,
      (k!"addInstantiationDataDefProps", .add k!"instantiationDataDefProps" true false) /- 1211 -/,
      (k!"getInstantiationDataDefPropss", .get k!"instantiationDataDefProps") /- 1221 -/,
      (k!"addVariationPointProxy", .add k!"variationPointProxies" true false) /- 1225 -/,
      (k!"getVariationPointProxies", .get k!"variationPointProxies") /- 1235 -/]⟩
     .nil)
    -- M2/AUTOSARTemplates/SystemTemplate/Fibex/Fibex4Ethernet/NetworkEndpoint.py:350
    k!"TimeSynchronization" ⟨false, some (0, [.sup 0, .field k!"timeSyncClient" .none, .field k!"timeSyncServer" .none]),
     [(k!"getTimeSyncClient", .get k!"timeSyncClient") /- 370 -/,
      (k!"setTimeSyncClient", .set k!"timeSyncClient" true) /- 373 -/,
      (k!"getTimeSyncServer", .get k!"timeSyncServer") /- 378 -/,
      (k!"setTimeSyncServer", .set k!"timeSyncServer" true) /- 381 -/]⟩
    .nil)
   -- M2/AUTOSARTemplates/CommonStructure/ServiceNeeds.py:4510
   k!"V2xDataManagerNeeds" ⟨false, some (2, [.sup 2]),
     []⟩
   (.node .nil
    -- M2/AUTOSARTemplates/SWComponentTemplate/SwcInternalBehavior/VariantHandling.py:10
    k!"VariationPointProxy" ⟨false, some (2, [.sup 2, .field k!"conditionAccess" .none, .field k!"implementationDataTypeRef" .none, .field k!"postBuildValueAccessRef" .none, .field k!"postBuildVariantConditions" .nil, .field k!"valueAccess" .none]),
     [(k!"getConditionAccess", .get k!"conditionAccess") /- 49 -/,
      (k!"setConditionAccess", .set k!"conditionAccess" true) /- 58 -/,
      (k!"getImplementationDataTypeRef", .get k!"implementationDataTypeRef") /- 72 -/,
      (k!"setImplementationDataTypeRef", .set k!"implementationDataTypeRef" true) /- 81 -/,
      (k!"getPostBuildValueAccessRef", .get k!"postBuildValueAccessRef") /- 95 -/,
      (k!"setPostBuildValueAccessRef", .set k!"postBuildValueAccessRef" true) /- 104 -/,
      (k!"getPostBuildVariantConditions", .get k!"postBuildVariantConditions") /- 118 -/,
      (k!"addPostBuildVariantCondition", .add k!"postBuildVariantConditions" true false) /- 127 -/,
      (k!"getValueAccess", .get k!"valueAccess") /- 141 -/,
      (k!"setValueAccess", .set k!"valueAccess" true) /- 150 -/]⟩
    .nil))
  -- M2/AUTOSARTemplates/GenericStructure/GeneralTemplateClasses/PrimitiveTypes.py:1373
  k!"VerbatimStringPlain" ⟨false, some (0, [.sup 0]),
     []⟩
  (.node (.node .nil
    -- M2/AUTOSARTemplates/CommonStructure/ResourceConsumption/StackUsage.py:348
    k!"WorstCaseStackUsage" ⟨false, some (2, [.sup 2, .field k!"memoryConsumption" .none]),
     [(k!"getMemoryConsumption", .get k!"memoryConsumption") /- 373 -/,
      (k!"setMemoryConsumption", .set k!"memoryConsumption" true) /- 382 -/]⟩
    .nil)
   -- M2/AUTOSARTemplates/AbstractPlatform/ApplicationInterface.py:19
   k!"ApplicationInterface" ⟨false, some (2, [.sup 2, .field k!"attributes" .nil, .field k!"commands" .nil, .field k!"indications" .nil]),
     [(k!"getAttributes", .get k!"attributes") /- 57 -/,
      (k!"setAttributes", .set k!"attributes" false) /- 60 -/,
      (k!"addAttribute", .add k!"attributes" false false) /- 64 -/,
      (k!"getCommands", .get k!"commands") /- 69 -/,
      (k!"setCommands", .set k!"commands" false) /- 72 -/,
      (k!"addCommand", .add k!"commands" false false) /- 76 -/,
      (k!"getIndications", .get k!"indications") /- 81 -/,
      (k!"setIndications", .set k!"indications" false) /- 84 -/,
      (k!"addIndication", .add k!"indications" false false) /- 88 -/]⟩
   (.node .nil
    -- M2/AUTOSARTemplates/SWComponentTemplate/Datatype/DataPrototypes.py:70
    k!"AutosarDataPrototype" ⟨true, some (2, [.guard k!"AutosarDataPrototype", .sup 2, .field k!"typeTRef" .none]),
     [(k!"getTypeTRef", .get k!"typeTRef") /- 91 -/,
      (k!"setTypeTRef", .set k!"typeTRef" true) /- 100 -/]⟩
    .nil)))
 -- M2/AUTOSARTemplates/BswModuleTemplate/BswBehavior/__init__.py:1339
 k!"BswDataReceivedEvent" ⟨false, some (2, [.sup 2, .field k!"dataRef" .none]),
     [(k!"getDataRef", .get k!"dataRef") /- 1363 -/,
      (k!"setDataRef", .set k!"dataRef" false) /- 1372 -/]⟩
 (.node (.node (.node .nil
    -- M2/AUTOSARTemplates/BswModuleTemplate/BswInterfaces.py:580
    k!"BswEntryRelationship" ⟨false, some (0, [.sup 0, .field k!"bswEntryRelationshipType" .none, .field k!"fromRef" .none, .field k!"toRef" .none]),
     [(k!"getBswEntryRelationshipType", .get k!"bswEntryRelationshipType") /- 612 -/,
      (k!"setBswEntryRelationshipType", .set k!"bswEntryRelationshipType" true) /- 619 -/,
      (k!"getFromRef", .get k!"fromRef") /- 628 -/,
      (k!"setFromRef", .set k!"fromRef" true) /- 636 -/,
      (k!"getToRef", .get k!"toRef") /- 646 -/,
      (k!"setToRef", .set k!"toRef" true) /- 653 -/]⟩
    .nil)
   -- M2/AUTOSARTemplates/BswModuleTemplate/BswBehavior/__init__.py:754
   k!"BswInterruptCategory" ⟨false, some (0, [.sup 1]),
     []⟩
   (.node .nil
    -- M2/AUTOSARTemplates/BswModuleTemplate/BswOverview/__init__.py:19
    k!"BswModuleDescription" ⟨false, some (2, [.sup 2, .field k!"bswModuleDependencies" .nil, .field k!"bswModuleDocumentation" .none, .field k!"expectedEntryRefs" .nil, .field k!"implementedEntryRefs" .nil, .field k!"internalBehaviors" .nil, .field k!"moduleId" .none, .field k!"providedClientServerEntries" .nil, .field k!"providedDatas" .nil, .field k!"providedModeGroups" .nil, .field k!"releasedTriggers" .nil, .field k!"requiredClientServerEntries" .nil, .field k!"requiredDatas" .nil, .field k!"requiredModeGroups" .nil, .field k!"requiredTriggers" .nil]),
     [(k!"getBswModuleDependencies", .get k!"bswModuleDependencies") /- 106 -/,
      (k!"createBswModuleDependency", .other) /- 112 -/,
      (k!"addBswModuleDependency", .add k!"bswModuleDependencies" true false) /- 128 -/,
      (k!"getBswModuleDocumentation", .get k!"bswModuleDocumentation") /- 143 -/,
      (k!"setBswModuleDocumentation", .set k!"bswModuleDocumentation" true) /- 149 -/,
      (k!"getExpectedEntryRefs", .get k!"expectedEntryRefs") /- 164 -/,
      (k!"setExpectedEntryRefs", .set k!"expectedEntryRefs" true) /- 170 -/,
      (k!"addExpectedEntryRef", .add k!"expectedEntryRefs" true false) /- 185 -/,
      (k!"getImplementedEntryRefs", .get k!"implementedEntryRefs") /- 200 -/,
      (k!"addImplementedEntryRef", .add k!"implementedEntryRefs" true false) /- 206 -/,
      (k!"getInternalBehaviors", .get k!"internalBehaviors") /- 221 -/,
      (k!"setInternalBehaviors", .set k!"internalBehaviors" true) /- 227 -/,
      (k!"createBswInternalBehavior", .other) /- 242 -/,
      (k!"getModuleId", .get k!"moduleId") /- 258 -/,
      (k!"setModuleId", .set k!"moduleId" true) /- 264 -/,
      (k!"getProvidedClientServerEntries", .get k!"providedClientServerEntries") /- 279 -/,
      (k!"createProvidedClientServerEntry", .other) /- 285 -/,
      (k!"getProvidedDatas", .get k!"providedDatas") /- 301 -/,
      (k!"createProvidedData", .other) /- 307 -/,
      (k!"getProvidedModeGroups", .get k!"providedModeGroups") /- 323 -/,
      (k!"createProvidedModeGroup", .other) /- 329 -/,
      (k!"getReleasedTriggers", .get k!"releasedTriggers") /- 345 -/,
      (k!"createReleasedTrigger", .other) /- 351 -/,
      (k!"getRequiredClientServerEntries", .get k!"requiredClientServerEntries") /- 367 -/,
      (k!"createRequiredClientServerEntry", .other) /- 373 -/,
      (k!"getRequiredDatas", .get k!"requiredDatas") /- 389 -/,
      (k!"createRequiredData", .other) /- 395 -/,
      (k!"getRequiredModeGroups", .get k!"requiredModeGroups") /- 411 -/,
      (k!"createRequiredModeGroup", .other) /- 417 -/,
      (k!"getRequiredTriggers", .get k!"requiredTriggers") /- 433 -/,
      (k!"createRequiredTrigger", .other) /- 439 -/]⟩
    .nil))
  -- M2/AUTOSARTemplates/BswModuleTemplate/BswBehavior/__init__.py:734
  k!"BswSchedulableEntity" ⟨false, some (2, [.sup 2]),
     []⟩
  (.node (.node .nil
    -- M2/AUTOSARTemplates/BswModuleTemplate/BswBehavior/__init__.py:2187
    k!"BswServiceDependency" ⟨false, some (0, [.sup 0, .field k!"assignedData" .nil, .field k!"assignedEntryRole" .nil, .field k!"ident" .none, .field k!"serviceNeeds" .none]),
     [(k!"getAssignedData", .get k!"assignedData") /- 2228 -/,
      (k!"addAssignedData", .add k!"assignedData" true false) /- 2238 -/,
      (k!"getAssignedEntryRole", .get k!"assignedEntryRole") /- 2255 -/,
      (k!"addAssignedEntryRole", .add k!"assignedEntryRole" true false) /- 2265 -/,
      (k!"getIdent", .get k!"ident") /- 2281 -/,
      (k!"setIdent", .set k!"ident" true) /- 2291 -/,
      (k!"getServiceNeeds", .get k!"serviceNeeds") /- 2307 -/,
      (k!"setServiceNeeds", .set k!"serviceNeeds" true) /- 2317 -/]⟩
    .nil)
   -- M2/AUTOSARTemplates/SWComponentTemplate/NvBlockComponent.py:225
   k!"BulkNvDataDescriptor" ⟨false, some (2, [.sup 2, .field k!"bulkNvBlock" .none, .field k!"nvBlockDataMappings" .nil]),
     [(k!"getBulkNvBlock", .get k!"bulkNvBlock") /- 248 -/,
      (k!"setBulkNvBlock", .set k!"bulkNvBlock" true) /- 259 -/,
      (k!"getNvBlockDataMappings", .get k!"nvBlockDataMappings") /- 276 -/,
      (k!"addNvBlockDataMapping", .add k!"nvBlockDataMappings" true true) /- 287 -/]⟩
   (.node .nil
    -- M2/AUTOSARTemplates/SystemTemplate/NetworkManagement.py:30
    k!"CanNmClusterCoupling" ⟨false, some (0, [.sup 0, .field k!"coupledClusterRefs" .nil, .field k!"nmBusloadReductionEnabled" .none, .field k!"nmImmediateRestartEnabled" .none]),
     [(k!"getCoupledClusterRefs", .get k!"coupledClusterRefs") /- 53 -/,
      (k!"addCoupledClusterRef", .add k!"coupledClusterRefs" false false) /- 56 -/,
      (k!"getNmBusloadReductionEnabled", .get k!"nmBusloadReductionEnabled") /- 60 -/,
      (k!"setNmBusloadReductionEnabled", .set k!"nmBusloadReductionEnabled" false) /- 63 -/,
      (k!"getNmImmediateRestartEnabled", .get k!"nmImmediateRestartEnabled") /- 67 -/,
      (k!"setNmImmediateRestartEnabled", .set k!"nmImmediateRestartEnabled" false) /- 70 -/]⟩
    .nil))))

-- M2/MSR/DataDictionary/RecordLayout.py:162
def accTable65 : Bst (ClassAcc) :=
 .node accTable63 k!"SwRecordLayoutGroup" ⟨false, some (0, [.sup 0, .field k!"category" .none, .field k!"desc" .none, .field k!"shortLabel" .none, .field k!"swGenericAxisParamTypeRef" .none, .field k!"swRecordLayoutComponent" .none, .field k!"swRecordLayoutGroupAxis" .none, .field k!"swRecordLayoutGroupContentType" .none, .field k!"swRecordLayoutGroupFrom" .none, .field k!"swRecordLayoutGroupIndex" .none, .field k!"swRecordLayoutGroupStep" .none, .field k!"swRecordLayoutGroupTo" .none]),
     [(k!"getCategory", .get k!"category") /- 208 -/,
      (k!"setCategory", .set k!"category" false) /- 211 -/,
      (k!"getDesc", .get k!"desc") /- 215 -/,
      (k!"setDesc", .set k!"desc" false) /- 218 -/,
      (k!"getShortLabel", .get k!"shortLabel") /- 222 -/,
      (k!"setShortLabel", .set k!"shortLabel" false) /- 225 -/,
      (k!"getSwGenericAxisParamTypeRef", .get k!"swGenericAxisParamTypeRef") /- 229 -/,
      (k!"setSwGenericAxisParamTypeRef", .set k!"swGenericAxisParamTypeRef" false) /- 232 -/,
      (k!"getSwRecordLayoutComponent", .get k!"swRecordLayoutComponent") /- 236 -/,
      (k!"setSwRecordLayoutComponent", .set k!"swRecordLayoutComponent" false) /- 239 -/,
      (k!"getSwRecordLayoutGroupAxis", .get k!"swRecordLayoutGroupAxis") /- 243 -/,
      (k!"setSwRecordLayoutGroupAxis", .set k!"swRecordLayoutGroupAxis" false) /- 246 -/,
      (k!"getSwRecordLayoutGroupContentType", .get k!"swRecordLayoutGroupContentType") /- 250 -/,
      (k!"setSwRecordLayoutGroupContentType", .set k!"swRecordLayoutGroupContentType" false) /- 253 -/,
      (k!"getSwRecordLayoutGroupFrom", .get k!"swRecordLayoutGroupFrom") /- 257 -/,
      (k!"setSwRecordLayoutGroupFrom", .set k!"swRecordLayoutGroupFrom" false) /- 260 -/,
      (k!"getSwRecordLayoutGroupIndex", .get k!"swRecordLayoutGroupIndex") /- 264 -/,
      (k!"setSwRecordLayoutGroupIndex", .set k!"swRecordLayoutGroupIndex" false) /- 267 -/,
      (k!"getSwRecordLayoutGroupStep", .get k!"swRecordLayoutGroupStep") /- 271 -/,
      (k!"setSwRecordLayoutGroupStep", .set k!"swRecordLayoutGroupStep" false) /- 274 -/,
      (k!"getSwRecordLayoutGroupTo", .get k!"swRecordLayoutGroupTo") /- 278 -/,
      (k!"setSwRecordLayoutGroupTo", .set k!"swRecordLayoutGroupTo" false) /- 281 -/]⟩ accTable64

def accTable66 : Bst (ClassAcc) :=
 (.node (.node (.node (.node (.node .nil
     -- M2/AUTOSARTemplates/SystemTemplate/Fibex/FibexCore/CoreTopology.py:389
     k!"CommunicationCluster" ⟨true, some (2, [.guard k!"CommunicationCluster", .sup 2, .field k!"baudrate" .none, .field k!"physicalChannel" .nil, .field k!"protocolName" .none, .field k!"protocolVersion" .none]),
     [(k!"getBaudrate", .get k!"baudrate") /- 430 -/,
      (k!"setBaudrate", .set k!"baudrate" true) /- 436 -/,
      (k!"getPhysicalChannels", .other) /- 445 -/,
      (k!"getCanPhysicalChannels", .other) /- 451 -/,
      (k!"getLinPhysicalChannels", .other) /- 457 -/,
      (k!"getEthernetPhysicalChannels", .other) /- 463 -/,
      (k!"createCanPhysicalChannel", .other) /- 469 -/,
      (k!"createLinPhysicalChannel", .other) /- 479 -/,
      (k!"createEthernetPhysicalChannel", .other) /- 489 -/,
      (k!"createFlexrayPhysicalChannel", .other) /- 499 -/,
      (k!"getProtocolName", .get k!"protocolName") /- 509 -/,
      (k!"setProtocolName", .set k!"protocolName" true) /- 515 -/,
      (k!"getProtocolVersion", .get k!"protocolVersion") /- 524 -/,
      (k!"setProtocolVersion", .set k!"protocolVersion" true) /- 530 -/]⟩
     .nil)
    -- M2/AUTOSARTemplates/AdaptivePlatform/PlatformModuleDeployment/CryptoDeployment/CryptoKeySlotContent.py:9
    k!"CryptoKeySlotContent" ⟨false, some (2, [.sup 2]),
     []⟩
    .nil)
   -- M2/AUTOSARTemplates/SystemTemplate/SecureCommunication.py:10
   k!"CryptoServiceMapping" ⟨true, some (2, [.guard k!"CryptoServiceMapping", .sup 2]),
     []⟩
   (.node .nil
    -- M2/AUTOSARTemplates/SWComponentTemplate/PortInterface/__init__.py:993
    k!"DataPrototypeMapping" ⟨false, some (0, [.sup 0, .field k!"firstDataPrototypeRef" .none, .field k!"firstToSecondDataTransformationRef" .none, .field k!"secondDataPrototypeRef" .none, .field k!"secondToFirstDataTransformationRef" .none, .field k!"subElementMappings" .nil, .field k!"textTableMappings" .nil]),
     [(k!"getFirstDataPrototypeRef", .get k!"firstDataPrototypeRef") /- 1037 -/,
      (k!"setFirstDataPrototypeRef", .set k!"firstDataPrototypeRef" true) /- 1043 -/,
      (k!"getFirstToSecondDataTransformationRef", .get k!"firstToSecondDataTransformationRef") /- 1052 -/,
      (k!"setFirstToSecondDataTransformationRef", .set k!"firstToSecondDataTransformationRef" true) /- 1058 -/,
      (k!"getSecondDataPrototypeRef", .get k!"secondDataPrototypeRef") /- 1067 -/,
      (k!"setSecondDataPrototypeRef", .set k!"secondDataPrototypeRef" true) /- 1073 -/,
      (k!"getSecondToFirstDataTransformationRef", .get k!"secondToFirstDataTransformationRef") /- 1082 -/,
      (k!"setSecondToFirstDataTransformationRef", .set k!"secondToFirstDataTransformationRef" true) /- 1088 -/,
      (k!"addSubElementMapping", .add k!"subElementMappings" true false) /- 1097 -/,
      (k!"getSubElementMappings", .get k!"subElementMappings") /- 1106 -/,
      (k!"addTextTableMapping", .add k!"textTableMappings" true false) /- 1112 -/,
      (k!"getTextTableMappings", .get k!"textTableMappings") /- 1121 -/]⟩
    .nil))
  -- M2/AUTOSARTemplates/CommonStructure/Implementation.py:370
  k!"DependencyOnArtifact" ⟨false, some (2, [.sup 2, .field k!"artifactDescriptor" .none, .field k!"usages" .nil]),
     [(k!"getArtifactDescriptor", .get k!"artifactDescriptor") /- 399 -/,
      (k!"setArtifactDescriptor", .set k!"artifactDescriptor" true) /- 408 -/,
      (k!"getUsages", .get k!"usages") /- 423 -/,
      (k!"addUsage", .add k!"usages" true false) /- 433 -/]⟩
  (.node (.node .nil
    -- M2/AUTOSARTemplates/SystemTemplate/DiagnosticConnection.py:9
    k!"DiagnosticConnection" ⟨false, some (2, [.sup 2, .field k!"functionalRequestRefs" .nil, .field k!"periodicResponseUudtRefs" .nil, .field k!"physicalRequestRef" .none, .field k!"responseRef" .none, .field k!"responseOnEventRef" .none]),
     [(k!"getFunctionalRequestRefs", .get k!"functionalRequestRefs") /- 39 -/,
      (k!"addFunctionalRequestRef", .add k!"functionalRequestRefs" true false) /- 42 -/,
      (k!"getPeriodicResponseUudtRefs", .get k!"periodicResponseUudtRefs") /- 47 -/,
      (k!"addPeriodicResponseUudtRef", .add k!"periodicResponseUudtRefs" true false) /- 50 -/,
      (k!"getPhysicalRequestRef", .get k!"physicalRequestRef") /- 55 -/,
      (k!"setPhysicalRequestRef", .set k!"physicalRequestRef" true) /- 58 -/,
      (k!"getResponseRef", .get k!"responseRef") /- 63 -/,
      (k!"setResponseRef", .set k!"responseRef" true) /- 66 -/,
      (k!"getResponseOnEventRef", .get k!"responseOnEventRef") /- 71 -/,
      (k!"setResponseOnEventRef", .set k!"responseOnEventRef" true) /- 74 -/]⟩
    .nil)
   -- M2/AUTOSARTemplates/CommonStructure/ServiceNeeds.py:1690
   k!"DiagnosticEventNeeds" ⟨false, some (2, [.sup 2, .field k!"deferringFidRefs" .nil, .field k!"diagEventDebounceAlgorithm" .none, .field k!"inhibitingFidRef" .none, .field k!"inhibitingSecondaryFidRefs" .nil, .field k!"prestoredFreezeframeStoredInNvm" .none, .field k!"usesMonitorData" .none]),
     [(k!"getDeferringFidRefs", .get k!"deferringFidRefs") /- 1742 -/,
      (k!"addDeferringFidRef", .add k!"deferringFidRefs" true false) /- 1751 -/,
      (k!"getDiagEventDebounceAlgorithm", .get k!"diagEventDebounceAlgorithm") /- 1766 -/,
      (k!"createDiagEventDebounceCounterBased", .other) /- 1775 -/,
      (k!"createDiagEventDebounceMonitorInternal", .other) /- 1791 -/,
      (k!"createDiagEventDebounceTimeBased", .other) /- 1807 -/,
      (k!"getInhibitingFidRef", .get k!"inhibitingFidRef") /- 1823 -/,
      (k!"setInhibitingFidRef", .set k!"inhibitingFidRef" true) /- 1832 -/,
      (k!"getInhibitingSecondaryFidRefs", .get k!"inhibitingSecondaryFidRefs") /- 1847 -/,
      (k!"addInhibitingSecondaryFidRef", .add k!"inhibitingSecondaryFidRefs" true false) /- 1856 -/,
      (k!"getPrestoredFreezeframeStoredInNvm", .get k!"prestoredFreezeframeStoredInNvm") /- 1871 -/,
      (k!"setPrestoredFreezeframeStoredInNvm", .set k!"prestoredFreezeframeStoredInNvm" true) /- 1880 -/,
      (k!"getUsesMonitorData", .get k!"usesMonitorData") /- 1895 -/,
      (k!"setUsesMonitorData", .set k!"usesMonitorData" true) /- 1904 -/]⟩
   (.node .nil
    -- M2/AUTOSARTemplates/CommonStructure/ServiceNeeds.py:1085
    k!"DiagnosticValueNeeds" ⟨false, some (2, [.sup 2, .field k!"dataLength" .none, .field k!"diagnosticValueAccess" .none, .field k!"DidNumber" .none, .field k!"fixedLength" .none, .field k!"processingStyle" .none]),
     [(k!"getDataLength", .get k!"dataLength") /- 1125 -/,
      (k!"setDataLength", .set k!"dataLength" false) /- 1134 -/,
      (k!"getDiagnosticValueAccess", .get k!"diagnosticValueAccess") /- 1148 -/,
      (k!"setDiagnosticValueAccess", .set k!"diagnosticValueAccess" false) /- 1157 -/,
      (k!"getDidNumber", .get k!"DidNumber") /- 1171 -/,
      (k!"setDidNumber", .set k!"DidNumber" false) /- 1180 -/,
      (k!"getFixedLength", .get k!"fixedLength") /- 1194 -/,
      (k!"setFixedLength", .set k!"fixedLength" false) /- 1203 -/,
      (k!"getProcessingStyle", .get k!"processingStyle") /- 1217 -/,
      (k!"setProcessingStyle", .set k!"processingStyle" false) /- 1226 -/]⟩
    .nil)))
 -- M2/AUTOSARTemplates/GenericStructure/DocumentationOnM1/__init__.py:81
 k!"DocumentationContext" ⟨false, some (2, [.sup 2, .field k!"featureIRef" .none, .field k!"identifiableRef" .none]),
     [(k!"setFeatureIRef", .set k!"featureIRef" true) /- 105 -/,
      (k!"getFeatureIRef", .get k!"featureIRef") /- 118 -/,
      (k!"setIdentifiableRef", .set k!"identifiableRef" true) /- 127 -/,
      (k!"getIdentifiableRef", .get k!"identifiableRef") /- 140 -/]⟩
 (.node (.node (.node .nil
    -- M2/AUTOSARTemplates/CommonStructure/ServiceNeeds.py:2049
    k!"EcuStateMgrUserNeeds" ⟨false, some (2, [.sup 2]),
     []⟩
    .nil)
   -- M2/AUTOSARTemplates/ECUCParameterDefTemplate.py:629
   k!"EcucCommonAttributes" ⟨true, some (2, [.guard k!"EcucCommonAttributes", .sup 2, .field k!"multiplicityConfigClasses" .nil, .field k!"origin" .none, .field k!"postBuildVariantMultiplicity" .none, .field k!"postBuildVariantValue" .none, .field k!"requiresIndex" .none, .field k!"valueConfigClasses" .nil]),
     [(k!"getMultiplicityConfigClasses", .get k!"multiplicityConfigClasses") /- 675 -/,
      (k!"addMultiplicityConfigClass", .add k!"multiplicityConfigClasses" true false) /- 681 -/,
      (k!"getOrigin", .get k!"origin") /- 690 -/,
      (k!"setOrigin", .set k!"origin" true) /- 696 -/,
      (k!"getPostBuildVariantMultiplicity", .get k!"postBuildVariantMultiplicity") /- 705 -/,
      (k!"setPostBuildVariantMultiplicity", .set k!"postBuildVariantMultiplicity" true) /- 711 -/,
      (k!"getPostBuildVariantValue", .get k!"postBuildVariantValue") /- 720 -/,
      (k!"setPostBuildVariantValue", .set k!"postBuildVariantValue" true) /- 726 -/,
      (k!"getRequiresIndex", .get k!"requiresIndex") /- 735 -/,
      (k!"setRequiresIndex", .set k!"requiresIndex" true) /- 741 -/,
      (k!"getValueConfigClasses", .get k!"valueConfigClasses") /- 750 -/,
      (k!"addValueConfigClass", .add k!"valueConfigClasses" true false) /- 756 -/]⟩
   (.node .nil
    -- M2/AUTOSARTemplates/ECUCParameterDefTemplate.py:1891
    k!"EcucConditionFormula" ⟨false, some (0, [.sup 0, .field k!"ecucQueryRef" .none, .field k!"ecucQueryStringRef" .none]),
     [(k!"getEcucQueryRef", .get k!"ecucQueryRef") /- 1914 -/,
      (k!"setEcucQueryRef", .set k!"ecucQueryRef" true) /- 1920 -/,
      (k!"getEcucQueryStringRef", .get k!"ecucQueryStringRef") /- 1929 -/,
      (k!"setEcucQueryStringRef", .set k!"ecucQueryStringRef" true) /- 1935 -/]⟩
    .nil))
  -- M2/AUTOSARTemplates/SWComponentTemplate/ApplicationAttributes/__init__.py:40
  k!"FilterDebouncingEnum" ⟨false, some (0, [.sup 1]),
     []⟩
  (.node (.node .nil
    -- M2/AUTOSARTemplates/SystemTemplate/Fibex/Fibex4Ethernet/EthernetFrame.py:27
    k!"GenericEthernetFrame" ⟨false, some (2, [.sup 2]),
     []⟩
    .nil)
   -- M2/AUTOSARTemplates/SWComponentTemplate/Communication.py:1789
   k!"HandleOutOfRangeEnum" ⟨false, some (0, [.sup 1]),
     []⟩
   (.node .nil
    -- M2/AUTOSARTemplates/SystemTemplate/Fibex/FibexCore/CoreCommunication.py:837
    k!"ISignalToIPduMapping" ⟨false, some (2, [.sup 2, .field k!"iSignalRef" .none, .field k!"iSignalGroupRef" .none, .field k!"packingByteOrder" .none, .field k!"startPosition" .none, .field k!"transferProperty" .none, .field k!"updateIndicationBitPosition" .none]),
     [(k!"getISignalRef", .get k!"iSignalRef") /- 881 -/,
      (k!"setISignalRef", .set k!"iSignalRef" true) /- 887 -/,
      (k!"getISignalGroupRef", .get k!"iSignalGroupRef") /- 896 -/,
      (k!"setISignalGroupRef", .set k!"iSignalGroupRef" true) /- 902 -/,
      (k!"getPackingByteOrder", .get k!"packingByteOrder") /- 911 -/,
      (k!"setPackingByteOrder", .set k!"packingByteOrder" true) /- 917 -/,
      (k!"getStartPosition", .get k!"startPosition") /- 926 -/,
      (k!"setStartPosition", .set k!"startPosition" true) /- 932 -/,
      (k!"getTransferProperty", .get k!"transferProperty") /- 941 -/,
      (k!"setTransferProperty", .set k!"transferProperty" true) /- 947 -/,
      (k!"getUpdateIndicationBitPosition", .get k!"updateIndicationBitPosition") /- 956 -/,
      (k!"setUpdateIndicationBitPosition", .set k!"updateIndicationBitPosition" true) /- 962 -/]⟩
    .nil))))

def accTable67 : Bst (ClassAcc) :=
 (.node (.node (.node (.node .nil
    -- M2/AUTOSARTemplates/SystemTemplate/Fibex/Fibex4Ethernet/EthernetTopology.py:811
    k!"InitialSdDelayConfig" ⟨false, some (0, [.sup 0, .field k!"initialDelayMaxValue" .none, .field k!"initialDelayMinValue" .none, .field k!"initialRepetitionsBaseDelay" .none, .field k!"initialRepetitionsMax" .none]),
     [(k!"getInitialDelayMaxValue", .get k!"initialDelayMaxValue") /- 837 -/,
      (k!"setInitialDelayMaxValue", .set k!"initialDelayMaxValue" true) /- 840 -/,
      (k!"getInitialDelayMinValue", .get k!"initialDelayMinValue") /- 845 -/,
      (k!"setInitialDelayMinValue", .set k!"initialDelayMinValue" true) /- 848 -/,
      (k!"getInitialRepetitionsBaseDelay", .get k!"initialRepetitionsBaseDelay") /- 853 -/,
      (k!"setInitialRepetitionsBaseDelay", .set k!"initialRepetitionsBaseDelay" true) /- 856 -/,
      (k!"getInitialRepetitionsMax", .get k!"initialRepetitionsMax") /- 861 -/,
      (k!"setInitialRepetitionsMax", .set k!"initialRepetitionsMax" true) /- 864 -/]⟩
    .nil)
   -- M2/AUTOSARTemplates/CommonStructure/MeasurementCalibrationSupport/RptSupport/__init__.py:342
   k!"McFunctionDataRefSet" ⟨false, some (0, [.sup 0, .field k!"flatMapEntryRefs" .nil, .field k!"mcDataInstanceRefs" .nil]),
     [(k!"addFlatMapEntryRef", .add k!"flatMapEntryRefs" true false) /- 368 -/,
      (k!"getFlatMapEntryRefs", .get k!"flatMapEntryRefs") /- 383 -/,
      (k!"addMcDataInstanceRef", .add k!"mcDataInstanceRefs" true false) /- 392 -/,
      (k!"getMcDataInstanceRefs", .get k!"mcDataInstanceRefs") /- 407 -/]⟩
   (.node .nil
    -- M2/AUTOSARTemplates/SWComponentTemplate/RPTScenario.py:29
    k!"ModeAccessPointIdent" ⟨false, some (2, [.sup 2]),
     []⟩
    .nil))
  -- M2/AUTOSARTemplates/CommonStructure/ModeDeclaration.py:266
  k!"ModeDeclarationGroup" ⟨false, some (2, [.sup 2, .field k!"initialModeRef" .none, .field k!"modeDeclarations" .nil, .field k!"modeManagerErrorBehavior" .none, .field k!"modeTransitions" .nil, .field k!"modeUserErrorBehavior" .none, .field k!"onTransitionValue" .none]),
     [(k!"createModeDeclaration", .other) /- 310 -/,
      (k!"getModeDeclarations", .other) /- 325 -/,
      (k!"setInitialModeRef", .set k!"initialModeRef" true) /- 334 -/,
      (k!"getInitialModeRef", .get k!"initialModeRef") /- 349 -/,
      (k!"setOnTransitionValue", .set k!"onTransitionValue" true) /- 358 -/,
      (k!"getOnTransitionValue", .get k!"onTransitionValue") /- 373 -/,
      (k!"createModeTransition", .other) /- 382 -/,
      (k!"getModeTransitions", .get k!"modeTransitions") /- 398 -/,
      (k!"getModeManagerErrorBehavior", .get k!"modeManagerErrorBehavior") /- 407 -/,
      (k!"setModeManagerErrorBehavior", .set k!"modeManagerErrorBehavior" true) /- 416 -/,
      (k!"getModeUserErrorBehavior", .get k!"modeUserErrorBehavior") /- 431 -/,
      (k!"setModeUserErrorBehavior", .set k!"modeUserErrorBehavior" true) /- 440 -/]⟩
  (.node (.node .nil
    -- M2/AUTOSARTemplates/CommonStructure/Timing/TimingCondition/ModeInBswInstanceRef.py:4
    k!"ModeInBswInstanceRef" ⟨false, some (0, [.sup 0]),
     []⟩
    .nil)
   -- M2/AUTOSARTemplates/CommonStructure/Timing/TimingCondition/ModeInSwcInstanceRef.py:4
   k!"ModeInSwcInstanceRef" ⟨false, some (0, [.sup 0]),
     []⟩
   (.node .nil
    -- M2/AUTOSARTemplates/SWComponentTemplate/PortInterface/__init__.py:1178
    k!"ModeInterfaceMapping" ⟨false, some (2, [.sup 2, .field k!"modeMapping" .none]),
     [(k!"getModeMapping", .get k!"modeMapping") /- 1189 -/,
      (k!"setModeMapping", .set k!"modeMapping" true) /- 1192 -/]⟩
    .nil)))
 -- M2/AUTOSARTemplates/SWComponentTemplate/SwcInternalBehavior/RTEEvents.py:517
 k!"ModeSwitchedAckEvent" ⟨false, some (2, [.sup 2, .field k!"eventSourceRef" .none]),
     [(k!"getEventSourceRef", .get k!"eventSourceRef") /- 533 -/,
      (k!"setEventSourceRef", .set k!"eventSourceRef" true) /- 542 -/]⟩
 (.node (.node (.node .nil
    -- M2/AUTOSARTemplates/GenericStructure/GeneralTemplateClasses/MultidimensionalTime.py:11
    k!"MultidimensionalTime" ⟨false, some (0, [.sup 0, .field k!"cseCode" .none, .field k!"cseCodeFactor" .none]),
     [(k!"getCseCode", .get k!"cseCode") /- 45 -/,
      (k!"setCseCode", .set k!"cseCode" true) /- 56 -/,
      (k!"getCseCodeFactor", .get k!"cseCodeFactor") /- 72 -/,
      (k!"setCseCodeFactor", .set k!"cseCodeFactor" true) /- 83 -/]⟩
    .nil)
   -- M2/AUTOSARTemplates/SWComponentTemplate/ApplicationAttributes/__init__.py:465
   k!"NvDataPortAnnotation" ⟨false, some (0, [.sup 0, .field k!"variableRef" .none]),
     [(k!"getVariableRef", .get k!"variableRef") /- 483 -/,
      (k!"setVariableRef", .set k!"variableRef" true) /- 492 -/]⟩
   (.node .nil
    -- M2/AUTOSARTemplates/CommonStructure/ServiceNeeds.py:3794
    k!"ObdRatioServiceNeeds" ⟨false, some (2, [.sup 2, .field k!"connectionType" .none, .field k!"rateBasedMonitoredEventRef" .none, .field k!"usedFidRef" .none]),
     [(k!"getConnectionType", .get k!"connectionType") /- 3822 -/,
      (k!"setConnectionType", .set k!"connectionType" true) /- 3831 -/,
      (k!"getRateBasedMonitoredEventRef", .get k!"rateBasedMonitoredEventRef") /- 3846 -/,
      (k!"setRateBasedMonitoredEventRef", .set k!"rateBasedMonitoredEventRef" true) /- 3855 -/,
      (k!"getUsedFidRef", .get k!"usedFidRef") /- 3870 -/,
      (k!"setUsedFidRef", .set k!"usedFidRef" true) /- 3879 -/]⟩
    .nil))
  -- M2/AUTOSARTemplates/SWComponentTemplate/PortInterface/__init__.py:792
  k!"PortInterfaceMapping" ⟨true, some (2, [.guard k!"PortInterfaceMapping", .sup 2]),
     []⟩
  (.node (.node .nil
    -- M2/AUTOSARTemplates/SystemTemplate/Fibex/Fibex4Ethernet/EthernetTopology.py:774
    k!"RequestResponseDelay" ⟨false, some (0, [.sup 0, .field k!"maxValue" .none, .field k!"minValue" .none]),
     [(k!"getMaxValue", .get k!"maxValue") /- 794 -/,
      (k!"setMaxValue", .set k!"maxValue" true) /- 797 -/,
      (k!"getMinValue", .get k!"minValue") /- 802 -/,
      (k!"setMinValue", .set k!"minValue" true) /- 805 -/]⟩
    .nil)
   -- M2/AUTOSARTemplates/SWComponentTemplate/Composition/__init__.py:19
   k!"SwComponentPrototype" ⟨false, some (2, [.sup 2, .field k!"typeTRef" .none]),
     [(k!"getTypeTRef", .get k!"typeTRef") /- 30 -/,
      (k!"setTypeTRef", .set k!"typeTRef" false) /- 33 -/]⟩
   (.node .nil
    -- M2/MSR/DataDictionary/DataDefProperties.py:275
    k!"SwDataDependencyArgs" ⟨false, some (0, [.sup 0, .field k!"swCalprmRef" .none, .field k!"swVariable" .none]),
     [(k!"getSwCalprmRef", .get k!"swCalprmRef") /- 299 -/,
      (k!"setSwCalprmRef", .set k!"swCalprmRef" true) /- 305 -/,
      (k!"getSwVariable", .get k!"swVariable") /- 313 -/,
      (k!"setSwVariable", .set k!"swVariable" true) /- 319 -/]⟩
    .nil))))

-- M2/AUTOSARTemplates/CommonStructure/ServiceNeeds.py:3385
def accTable68 : Bst (ClassAcc) :=
 .node accTable66 k!"IndicatorStatusNeeds" ⟨false, some (2, [.sup 2, .field k!"type" .none]),
     [(k!"getType", .get k!"type") /- 3410 -/,
      (k!"setType", .set k!"type" true) /- 3419 -/]⟩ accTable67

-- M2/AUTOSARTemplates/SystemTemplate/__init__.py:78
def accTable69 : Bst (ClassAcc) :=
 .node accTable65 k!"ComManagementMapping" ⟨false, some (2, [.sup 2, .field k!"comManagementGroupRefs" .nil, .field k!"comManagementPortGroupRefs" .nil, .field k!"physicalChannelRef" .none]),
     [(k!"getComManagementGroupRefs", .get k!"comManagementGroupRefs") /- 101 -/,
      (k!"addComManagementGroupRef", .add k!"comManagementGroupRefs" true false) /- 104 -/,
      (k!"getComManagementPortGroupRefs", .get k!"comManagementPortGroupRefs") /- 109 -/,
      (k!"addComManagementPortGroupRef", .add k!"comManagementPortGroupRefs" true false) /- 112 -/,
      (k!"getPhysicalChannelRef", .get k!"physicalChannelRef") /- 117 -/,
      (k!"setPhysicalChannelRef", .set k!"physicalChannelRef" true) /- 120 -/]⟩ accTable68

def accTable70 : Bst (ClassAcc) :=
 (.node (.node (.node (.node (.node .nil
     -- M2/AUTOSARTemplates/SWComponentTemplate/SwcInternalBehavior/ServiceMapping.py:111
     k!"SwcServiceDependency" ⟨false, some (2, [.base k!"ServiceDependency" 0, .base k!"Identifiable" 2, .field k!"assignedData" .nil, .field k!"assignedPort" .nil, .field k!"representedPortGroup" .none, .field k!"serviceNeeds" .none]),
     [(k!"AddAssignedData", .add k!"assignedData" false false) /- 182 -/,
      (k!"getAssignedData", .get k!"assignedData") /- 191 -/,
      (k!"AddAssignedPort", .add k!"assignedPort" false false) /- 200 -/,
      (k!"getAssignedPorts", .get k!"assignedPort") /- 209 -/,
      (k!"createNvBlockNeeds", .other) /- 218 -/,
      (k!"createDiagnosticCommunicationManagerNeeds", .other) /- 234 -/,
      (k!"createDiagnosticRoutineNeeds", .other) /- 251 -/,
      (k!"createDiagnosticValueNeeds", .other) /- 267 -/,
      (k!"createDiagnosticEventNeeds", .other) /- 283 -/,
      (k!"createDiagnosticEventInfoNeeds", .other) /- 299 -/,
      (k!"createCryptoServiceNeeds", .other) /- 315 -/,
      (k!"createEcuStateMgrUserNeeds", .other) /- 331 -/,
      (k!"createDtcStatusChangeNotificationNeeds", .other) /- 347 -/,
      (k!"createDiagnosticIoControlNeeds", .other) /- 364 -/,
      (k!"createDiagnosticEnableConditionNeeds", .other) /- 380 -/,
      (k!"createDiagnosticOperationCycleNeeds", .other) /- 396 -/,
      (k!"createDiagnosticStorageConditionNeeds", .other) /- 412 -/,
      (k!"createFunctionInhibitionAvailabilityNeeds", .other) /- 428 -/,
      (k!"createIndicatorStatusNeeds", .other) /- 444 -/,
      (k!"createDltUserNeeds", .other) /- 460 -/,
      (k!"createComMgrUserNeeds", .other) /- 476 -/,
      (k!"createErrorTracerNeeds", .other) /- 492 -/,
      (k!"createObdInfoServiceNeeds", .other) /- 508 -/,
      (k!"createObdMonitorServiceNeeds", .other) /- 524 -/,
      (k!"createObdPidServiceNeeds", .other) /- 540 -/,
      (k!"createObdControlServiceNeeds", .other) /- 556 -/,
      (k!"createObdRatioServiceNeeds", .other) /- 572 -/,
      (k!"createObdRatioDenominatorNeeds", .other) /- 588 -/,
      (k!"createDoIpRoutingActivationAuthenticationNeeds", .other) /- 604 -/,
      (k!"createDoIpRoutingActivationConfirmationNeeds", .other) /- 620 -/,
      (k!"createSecureOnBoardCommunicationNeeds", .other) /- 636 -/,
      (k!"createIdsMgrNeeds", .other) /- 652 -/,
      (k!"getNvBlockNeeds", .other) /- 668 -/,
      (k!"getDiagnosticCommunicationManagerNeeds", .other) /- 677 -/,
      (k!"getDiagnosticRoutineNeeds", .other) /- 687 -/,
      (k!"getDiagnosticValueNeeds", .other) /- 697 -/,
      (k!"getDiagnosticEventNeeds", .other) /- 706 -/,
      (k!"getDiagnosticEventInfoNeeds", .other) /- 715 -/,
      (k!"getCryptoServiceNeeds", .other) /- 725 -/,
      (k!"getEcuStateMgrUserNeeds", .other) /- 734 -/,
      (k!"getDtcStatusChangeNotificationNeeds", .other) /- 743 -/,
      (k!"getDiagnosticIoControlNeeds", .other) /- 753 -/,
      (k!"getDltUserNeeds", .other) /- 763 -/,
      (k!"getComMgrUserNeeds", .other) /- 772 -/,
      (k!"getErrorTracerNeeds", .other) /- 781 -/,
      (k!"getObdInfoServiceNeeds", .other) /- 790 -/,
      (k!"getObdMonitorServiceNeeds", .other) /- 799 -/,
      (k!"getObdPidServiceNeeds", .other) /- 808 -/,
      (k!"getObdControlServiceNeeds", .other) /- 817 -/,
      (k!"getServiceNeeds", .other) /- 826 -/,
      (k!"setRepresentedPortGroup", .set k!"representedPortGroup" true) /- 835 -/,
      (k!"getRepresentedPortGroup", .get k!"representedPortGroup") /- 850 -/]⟩
     .nil)
    -- M2/AUTOSARTemplates/SystemTemplate/Fibex/FibexCore/CoreCommunication.py:801
    k!"TransferPropertyEnum" ⟨false, some (0, [.sup 1]),
     []⟩
    .nil)
   -- M2/AUTOSARTemplates/SystemTemplate/Transformer/__init__.py:766
   k!"TransformerClassEnum" ⟨false, some (0, [.sup 1]),
     []⟩
   (.node .nil
    -- M2/AUTOSARTemplates/SystemTemplate/NetworkManagement.py:1366
    k!"UdpNmClusterCoupling" ⟨false, some (0, [.sup 0, .field k!"coupledClusterRefs" .nil, .field k!"nmImmediateRestartEnabled" .none]),
     [(k!"getCoupledClusterRefs", .get k!"coupledClusterRefs") /- 1386 -/,
      (k!"addCoupledClusterRef", .add k!"coupledClusterRefs" true false) /- 1389 -/,
      (k!"getNmImmediateRestartEnabled", .get k!"nmImmediateRestartEnabled") /- 1394 -/,
      (k!"setNmImmediateRestartEnabled", .set k!"nmImmediateRestartEnabled" true) /- 1397 -/]⟩
    .nil))
  -- M2/AUTOSARTemplates/SystemTemplate/Fibex/Fibex4Ethernet/EthernetFrame.py:9
  k!"AbstractEthernetFrame" ⟨true, some (2, [.guard k!"AbstractEthernetFrame", .sup 2]),
     []⟩
  (.node (.node .nil
    -- M2/AUTOSARTemplates/CommonStructure/ResourceConsumption/ExecutionTime/__init__.py:339
    k!"AnalyzedExecutionTime" ⟨false, some (2, [.sup 2, .field k!"bestCaseExecutionTime" .none, .field k!"worstCaseExecutionTime" .none]),
     [(k!"getBestCaseExecutionTime", .get k!"bestCaseExecutionTime") /- 378 -/,
      (k!"setBestCaseExecutionTime", .set k!"bestCaseExecutionTime" true) /- 387 -/,
      (k!"getWorstCaseExecutionTime", .get k!"worstCaseExecutionTime") /- 401 -/,
      (k!"setWorstCaseExecutionTime", .set k!"worstCaseExecutionTime" true) /- 410 -/]⟩
    .nil)
   -- M2/AUTOSARTemplates/SWComponentTemplate/PortInterface/__init__.py:370
   k!"ArgumentDataPrototype" ⟨false, some (2, [.sup 2, .field k!"direction" .none, .field k!"serverArgumentImplPolicy" .none]),
     [(k!"getDirection", .get k!"direction") /- 407 -/,
      (k!"setDirection", .set k!"direction" true) /- 419 -/,
      (k!"getServerArgumentImplPolicy", .get k!"serverArgumentImplPolicy") /- 437 -/,
      (k!"setServerArgumentImplPolicy", .set k!"serverArgumentImplPolicy" true) /- 452 -/]⟩
   (.node .nil
    -- M2/AUTOSARTemplates/GenericStructure/GeneralTemplateClasses/PrimitiveTypes.py:1146
    k!"ArgumentDirectionEnum" ⟨false, some (0, [.sup 1]),
     []⟩
    .nil)))
 -- M2/AUTOSARTemplates/SWComponentTemplate/Datatype/Datatypes.py:89
 k!"ArraySizeHandlingEnum" ⟨false, some (0, [.sup 1]),
     []⟩
 (.node (.node (.node .nil
    -- M2/AUTOSARTemplates/SWComponentTemplate/Components/__init__.py:506
    k!"AtomicSwComponentType" ⟨true, some (2, [.sup 2, .field k!"internalBehavior" .none, .field k!"symbolProps" .none]),
     [(k!"getInternalBehavior", .get k!"internalBehavior") /- 531 -/,
      (k!"createSwcInternalBehavior", .other) /- 542 -/,
      (k!"getSymbolProps", .get k!"symbolProps") /- 559 -/,
      (k!"createSymbolProps", .other) /- 569 -/]⟩
    .nil)
   -- M2/AUTOSARTemplates/BswModuleTemplate/BswBehavior/__init__.py:1618
   k!"BswModeReceiverPolicy" ⟨false, some (0, [.sup 0, .field k!"enhancedModeApi" .none, .field k!"requiredModeGroupRef" .none, .field k!"supportsAsynchronousModeSwitch" .none]),
     [(k!"getEnhancedModeApi", .get k!"enhancedModeApi") /- 1651 -/,
      (k!"setEnhancedModeApi", .set k!"enhancedModeApi" true) /- 1659 -/,
      (k!"getRequiredModeGroupRef", .get k!"requiredModeGroupRef") /- 1670 -/,
      (k!"setRequiredModeGroupRef", .set k!"requiredModeGroupRef" true) /- 1677 -/,
      (k!"getSupportsAsynchronousModeSwitch", .get k!"supportsAsynchronousModeSwitch") /- 1688 -/,
      (k!"setSupportsAsynchronousModeSwitch", .set k!"supportsAsynchronousModeSwitch" true) /- 1696 -/]⟩
   (.node .nil
    -- M2/AUTOSARTemplates/SWComponentTemplate/PortInterface/__init__.py:654
    k!"ClientServerInterface" ⟨false, some (2, [.sup 2, .field k!"operations" .nil, .field k!"possibleErrors" .nil]),
     [(k!"createOperation", .other) /- 678 -/,
      (k!"getOperations", .get k!"operations") /- 695 -/,
      (k!"createApplicationError", .other) /- 704 -/,
      (k!"getPossibleErrors", .get k!"possibleErrors") /- 721 -/]⟩
    .nil))
  -- M2/AUTOSARTemplates/SWComponentTemplate/PortInterface/__init__.py:520
  k!"ClientServerOperation" ⟨false, some (2, [.sup 2, .field k!"arguments" .nil, .field k!"diagArgIntegrity" .none, .field k!"possibleErrorRefs" .nil]),
     [(k!"createArgumentDataPrototype", .other) /- 560 -/,
      (k!"getArguments", .get k!"arguments") /- 579 -/,
      (k!"getDiagArgIntegrity", .get k!"diagArgIntegrity") /- 590 -/,
      (k!"setDiagArgIntegrity", .set k!"diagArgIntegrity" true) /- 605 -/,
      (k!"addPossibleErrorRef", .add k!"possibleErrorRefs" true false) /- 626 -/,
      (k!"getPossibleErrorRefs", .get k!"possibleErrorRefs") /- 642 -/]⟩
  (.node (.node .nil
    -- M2/MSR/AsamHdo/ComputationMethod.py:105
    k!"CompuConstTextContent" ⟨false, some (0, [.sup 0, .field k!"vt" .none]),
     [(k!"getVt", .get k!"vt") /- 122 -/,
      (k!"setVt", .set k!"vt" false) /- 125 -/]⟩
    .nil)
   -- M2/AUTOSARTemplates/CommonStructure/Constants/__init__.py:417
   k!"ConstantSpecification" ⟨false, some (2, [.sup 2, .field k!"valueSpec" .none]),
     [(k!"getValueSpec", .get k!"valueSpec") /- 441 -/,
      (k!"setValueSpec", .set k!"valueSpec" false) /- 450 -/]⟩
   (.node .nil
    -- M2/AUTOSARTemplates/SystemTemplate/Fibex/Fibex4Ethernet/EthernetTopology.py:172
    k!"CouplingPortScheduler" ⟨false, some (2, [.sup 2, .field k!"portScheduler" .none, .field k!"predecessorRefs" .nil]),
     [(k!"getPortScheduler", .get k!"portScheduler") /- 192 -/,
      (k!"setPortScheduler", .set k!"portScheduler" true) /- 195 -/,
      (k!"getPredecessorRefs", .get k!"predecessorRefs") /- 200 -/,
      (k!"addPredecessorRef", .add k!"predecessorRefs" true false) /- 203 -/]⟩
    .nil))))

def accTable71 : Bst (ClassAcc) :=
 (.node (.node (.node (.node .nil
    -- M2/AUTOSARTemplates/SWComponentTemplate/SwcInternalBehavior/RTEEvents.py:292
    k!"DataReceiveErrorEvent" ⟨false, some (2, [.sup 2, .field k!"dataIRef" .none]),
     [(k!"getDataIRef", .get k!"dataIRef") /- 308 -/,
      (k!"setDataIRef", .set k!"dataIRef" false) /- 317 -/]⟩
    .nil)
   -- M2/AUTOSARTemplates/SystemTemplate/Transformer/__init__.py:947
   k!"DataTransformationSet" ⟨false, some (2, [.sup 2, .field k!"dataTransformations" .nil, .field k!"transformationTechnologies" .nil]),
     [(k!"getDataTransformations", .get k!"dataTransformations") /- 967 -/,
      (k!"createDataTransformation", .other) /- 970 -/,
      (k!"getTransformationTechnologies", .get k!"transformationTechnologies") /- 977 -/,
      (k!"createTransformationTechnology", .other) /- 980 -/]⟩
   (.node .nil
    -- M2/AUTOSARTemplates/SWComponentTemplate/Composition/__init__.py:113
    k!"DelegationSwConnector" ⟨false, some (2, [.sup 2, .field k!"innerPortIRref" .none, .field k!"outerPortRef" .none]),
     [(k!"getInnerPortIRref", .get k!"innerPortIRref") /- 127 -/,
      (k!"setInnerPortIRref", .set k!"innerPortIRref" false) /- 130 -/,
      (k!"getOuterPortRef", .get k!"outerPortRef") /- 134 -/,
      (k!"setOuterPortRef", .set k!"outerPortRef" false) /- 137 -/]⟩
    .nil))
  -- M2/AUTOSARTemplates/ECUCDescriptionTemplate.py:138
  k!"EcucAddInfoParamValue" ⟨false, some (0, [.sup 0, .field k!"value" .none]),
     [(k!"getValue", .get k!"value") /- 154 -/,
      (k!"setValue", .set k!"value" false) /- 157 -/]⟩
  (.node (.node .nil
    -- M2/AUTOSARTemplates/ECUCParameterDefTemplate.py:193
    k!"EcucDefinitionElement" ⟨true, some (2, [.guard k!"EcucDefinitionElement", .sup 2, .field k!"ecucCond" .none, .field k!"ecucValidationConds" .nil, .field k!"lowerMultiplicity" .none, .field k!"relatedTraceItemRef" .none, .field k!"scope" .none, .field k!"upperMultiplicity" .none, .field k!"upperMultiplicityInfinite" .none]),
     [(k!"getEcucCond", .get k!"ecucCond") /- 243 -/,
      (k!"setEcucCond", .set k!"ecucCond" true) /- 249 -/,
      (k!"getEcucValidationConds", .get k!"ecucValidationConds") /- 258 -/,
      (k!"addEcucValidationCond", .add k!"ecucValidationConds" true false) /- 264 -/,
      (k!"getLowerMultiplicity", .get k!"lowerMultiplicity") /- 273 -/,
      (k!"setLowerMultiplicity", .set k!"lowerMultiplicity" true) /- 279 -/,
      (k!"getRelatedTraceItemRef", .get k!"relatedTraceItemRef") /- 288 -/,
      (k!"setRelatedTraceItemRef", .set k!"relatedTraceItemRef" true) /- 294 -/,
      (k!"getScope", .get k!"scope") /- 303 -/,
      (k!"setScope", .set k!"scope" true) /- 309 -/,
      (k!"getUpperMultiplicity", .get k!"upperMultiplicity") /- 318 -/,
      (k!"setUpperMultiplicity", .set k!"upperMultiplicity" true) /- 324 -/,
      (k!"getUpperMultiplicityInfinite", .get k!"upperMultiplicityInfinite") /- 333 -/,
      (k!"setUpperMultiplicityInfinite", .set k!"upperMultiplicityInfinite" true) /- 339 -/]⟩
    .nil)
   -- M2/AUTOSARTemplates/ECUCParameterDefTemplate.py:1979
   k!"EcucDestinationUriDef" ⟨false, some (2, [.sup 2, .field k!"destinationUriPolicy" .none]),
     [(k!"getDestinationUriPolicy", .get k!"destinationUriPolicy") /- 1997 -/,
      (k!"setDestinationUriPolicy", .set k!"destinationUriPolicy" true) /- 2003 -/]⟩
   (.node .nil
    -- M2/AUTOSARTemplates/ECUCDescriptionTemplate.py:161
    k!"EcucTextualParamValue" ⟨false, some (0, [.sup 0, .field k!"value" .none]),
     [(k!"getValue", .get k!"value") /- 176 -/,
      (k!"setValue", .set k!"value" false) /- 179 -/]⟩
    .nil)))
 -- M2/AUTOSARTemplates/SWComponentTemplate/EndToEndProtection.py:499
 k!"EndToEndProtectionSet" ⟨false, some (2, [.sup 2]),
     [(k!"createEndToEndProtection", .other) /- 513 -/,
      (k!"getEndToEndProtections", .other) /- 528 -/]⟩
 (.node (.node (.node .nil
    -- M2/AUTOSARTemplates/SystemTemplate/Fibex/FibexCore/Timing.py:134
    k!"EventControlledTiming" ⟨false, some (0, [.sup 0, .field k!"numberOfRepetitions" .none, .field k!"repetitionPeriod" .none]),
     [(k!"getNumberOfRepetitions", .get k!"numberOfRepetitions") /- 153 -/,
      (k!"setNumberOfRepetitions", .set k!"numberOfRepetitions" false) /- 156 -/,
      (k!"getRepetitionPeriod", .get k!"repetitionPeriod") /- 160 -/,
      (k!"setRepetitionPeriod", .set k!"repetitionPeriod" false) /- 163 -/]⟩
    .nil)
   -- M2/AUTOSARTemplates/CommonStructure/Timing/TimingConstraint/ExecutionTimeConstraint.py:19
   k!"ExecutionTimeTypeEnum" ⟨false, some (0, [.sup 1]),
     []⟩
   (.node .nil
    -- M2/AUTOSARTemplates/CommonStructure/ResourceConsumption/__init__.py:26
    k!"HardwareConfiguration" ⟨false, some (0, [.sup 0, .field k!"additionalInformation" .none, .field k!"processorMode" .none, .field k!"processorSpeed" .none]),
     [(k!"getAdditionalInformation", .get k!"additionalInformation") /- 64 -/,
      (k!"setAdditionalInformation", .set k!"additionalInformation" true) /- 74 -/,
      (k!"getProcessorMode", .get k!"processorMode") /- 91 -/,
      (k!"setProcessorMode", .set k!"processorMode" true) /- 100 -/,
      (k!"getProcessorSpeed", .get k!"processorSpeed") /- 117 -/,
      (k!"setProcessorSpeed", .set k!"processorSpeed" true) /- 126 -/]⟩
    .nil))
  -- M2/AUTOSARTemplates/EcuResourceTemplate/HwAttributeValue.py:84
  k!"HwAttributeLiteralDef" ⟨false, some (2, [.sup 2, .field k!"value" .none]),
     [(k!"getValue", .get k!"value") /- 107 -/,
      (k!"setValue", .set k!"value" true) /- 116 -/]⟩
  (.node (.node .nil
    -- M2/AUTOSARTemplates/SystemTemplate/Fibex/Fibex4Lin/LinCommunication.py:189
    k!"LinConfigurationEntry" ⟨true, some (0, [.guard k!"LinConfigurationEntry", .sup 0]),
     []⟩
    .nil)
   -- M2/AUTOSARTemplates/SystemTemplate/Fibex/Fibex4Lin/LinCommunication.py:28
   k!"LinUnconditionalFrame" ⟨false, some (2, [.sup 2]),
     []⟩
   (.node .nil
    -- M2/AUTOSARTemplates/CommonStructure/ResourceConsumption/ExecutionTime/__init__.py:425
    k!"MeasuredExecutionTime" ⟨false, some (2, [.sup 2, .field k!"maximumExecutionTime" .none, .field k!"minimumExecutionTime" .none, .field k!"nominalExecutionTime" .none]),
     [(k!"getMaximumExecutionTime", .get k!"maximumExecutionTime") /- 465 -/,
      (k!"setMaximumExecutionTime", .set k!"maximumExecutionTime" true) /- 474 -/,
      (k!"getMinimumExecutionTime", .get k!"minimumExecutionTime") /- 488 -/,
      (k!"setMinimumExecutionTime", .set k!"minimumExecutionTime" true) /- 497 -/,
      (k!"getNominalExecutionTime", .get k!"nominalExecutionTime") /- 511 -/,
      (k!"setNominalExecutionTime", .set k!"nominalExecutionTime" true) /- 520 -/]⟩
    .nil))))

-- M2/AUTOSARTemplates/CommonStructure/ServiceNeeds.py:2179
def accTable72 : Bst (ClassAcc) :=
 .node accTable70 k!"CryptoServiceJobNeeds" ⟨false, some (2, [.sup 2]),
     []⟩ accTable71

def accTable73 : Bst (ClassAcc) :=
 (.node (.node (.node (.node (.node .nil
     -- M2/MSR/Documentation/TextModel/MultilanguageData.py:136
     k!"MultiLanguageVerbatim" ⟨false, some (0, [.sup 0, .field k!"allowBreak" .none, .field k!"float" .none, .field k!"helpEntry" .none, .field k!"l5s" .nil, .field k!"pgwide" .none]),
     [(k!"getAllowBreak", .get k!"allowBreak") /- 175 -/,
      (k!"setAllowBreak", .set k!"allowBreak" true) /- 184 -/,
      (k!"getFloat", .get k!"float") /- 195 -/,
      (k!"setFloat", .set k!"float" true) /- 204 -/,
      (k!"getHelpEntry", .get k!"helpEntry") /- 215 -/,
      (k!"setHelpEntry", .set k!"helpEntry" true) /- 224 -/,
      (k!"addL5", .add k!"l5s" true false) /- 235 -/,
      (k!"getL5s", .get k!"l5s") /- 246 -/,
      (k!"getPgwide", .get k!"pgwide") /- 255 -/,
      (k!"setPgwide", .set k!"pgwide" true) /- 264 -/]⟩
     .nil)
    -- M2/MSR/Documentation/TextModel/MultilanguageData.py:72
    k!"MultilanguageLongName" ⟨false, some (0, [.sup 0, .field k!"l4" .nil]),
     [(k!"addL4", .add k!"l4" false false) /- 88 -/,
      (k!"getL4s", .get k!"l4") /- 92 -/]⟩
    .nil)
   -- M2/AUTOSARTemplates/SystemTemplate/NetworkManagement.py:110
   k!"NmCoordinatorRoleEnum" ⟨false, some (0, [.sup 1]),
     []⟩
   (.node .nil
    -- M2/AUTOSARTemplates/SWComponentTemplate/SwcInternalBehavior/RTEEvents.py:331
    k!"OperationInvokedEvent" ⟨false, some (2, [.sup 2, .field k!"operationIRef" .none]),
     [(k!"getOperationIRef", .get k!"operationIRef") /- 347 -/,
      (k!"setOperationIRef", .set k!"operationIRef" true) /- 356 -/]⟩
    .nil))
  -- M2/AUTOSARTemplates/CommonStructure/ServiceNeeds.py:4411
  k!"PossibleErrorReaction" ⟨false, some (2, [.sup 2, .field k!"reactionCode" .none]),
     [(k!"getReactionCode", .get k!"reactionCode") /- 4434 -/,
      (k!"setReactionCode", .set k!"reactionCode" true) /- 4443 -/]⟩
  (.node (.node .nil
    -- M2/AUTOSARTemplates/SWComponentTemplate/Communication.py:1750
    k!"QueuedReceiverComSpec" ⟨false, some (0, [.sup 0, .field k!"queueLength" .none]),
     [(k!"getQueueLength", .get k!"queueLength") /- 1765 -/,
      (k!"setQueueLength", .set k!"queueLength" false) /- 1774 -/]⟩
    .nil)
   -- M2/AUTOSARTemplates/SWComponentTemplate/Communication.py:76
   k!"ReceptionComSpecProps" ⟨false, some (0, [.sup 0, .field k!"dataUpdatePeriod" .none, .field k!"timeout" .none]),
     [(k!"getDataUpdatePeriod", .get k!"dataUpdatePeriod") /- 99 -/,
      (k!"setDataUpdatePeriod", .set k!"dataUpdatePeriod" true) /- 110 -/,
      (k!"getTimeout", .get k!"timeout") /- 127 -/,
      (k!"setTimeout", .set k!"timeout" true) /- 138 -/]⟩
   (.node .nil
    -- M2/AUTOSARTemplates/CommonStructure/ServiceNeeds.py:4144
    k!"SupervisedEntityNeeds" ⟨false, some (2, [.sup 2, .field k!"activateAtStart" .none, .field k!"checkpointsRefs" .nil, .field k!"enableDeactivation" .none, .field k!"expectedAliveCycle" .none, .field k!"maxAliveCycle" .none, .field k!"minAliveCycle" .none, .field k!"toleratedFailedCycles" .none]),
     [(k!"getActivateAtStart", .get k!"activateAtStart") /- 4199 -/,
      (k!"setActivateAtStart", .set k!"activateAtStart" true) /- 4208 -/,
      (k!"addCheckpointsRef", .add k!"checkpointsRefs" true false) /- 4223 -/,
      (k!"getCheckpointsRefs", .get k!"checkpointsRefs") /- 4238 -/,
      (k!"getEnableDeactivation", .get k!"enableDeactivation") /- 4247 -/,
      (k!"setEnableDeactivation", .set k!"enableDeactivation" true) /- 4256 -/,
      (k!"getExpectedAliveCycle", .get k!"expectedAliveCycle") /- 4271 -/,
      (k!"setExpectedAliveCycle", .set k!"expectedAliveCycle" true) /- 4280 -/,
      (k!"getMaxAliveCycle", .get k!"maxAliveCycle") /- 4295 -/,
      (k!"setMaxAliveCycle", .set k!"maxAliveCycle" true) /- 4304 -/,
      (k!"getMinAliveCycle", .get k!"minAliveCycle") /- 4319 -/,
      (k!"setMinAliveCycle", .set k!"minAliveCycle" true) /- 4328 -/,
      (k!"getToleratedFailedCycles", .get k!"toleratedFailedCycles") /- 4343 -/,
      (k!"setToleratedFailedCycles", .set k!"toleratedFailedCycles" true) /- 4352 -/]⟩
    .nil)))
 -- M2/MSR/DataDictionary/CalibrationParameter.py:41
 k!"SwCalprmAxisTypeProps" ⟨true, some (0, [.guard k!"SwCalprmAxisTypeProps", .sup 0, .field k!"maxGradient" .none, .field k!"monotony" .none]),
     [(k!"getMaxGradient", .get k!"maxGradient") /- 69 -/,
      (k!"setMaxGradient", .set k!"maxGradient" true) /- 75 -/,
      (k!"getMonotony", .get k!"monotony") /- 83 -/,
      (k!"setMonotony", .set k!"monotony" true) /- 89 -/]⟩
 (.node (.node (.node .nil
    -- M2/AUTOSARTemplates/CommonStructure/SwcBswMapping.py:19
    k!"SwcBswRunnableMapping" ⟨false, some (0, [.sup 0, .field k!"bswEntityRef" .none, .field k!"swcRunnableRef" .none]),
     [(k!"getBswEntityRef", .get k!"bswEntityRef") /- 46 -/,
      (k!"setBswEntityRef", .set k!"bswEntityRef" false) /- 55 -/,
      (k!"getSwcRunnableRef", .get k!"swcRunnableRef") /- 69 -/,
      (k!"setSwcRunnableRef", .set k!"swcRunnableRef" false) /- 78 -/]⟩
    .nil)
   -- M2/AUTOSARTemplates/SWComponentTemplate/ApplicationAttributes/__init__.py:551
   k!"TriggerPortAnnotation" ⟨false, some (0, [.sup 0, .field k!"triggerRef" .none]),
     [(k!"getTriggerRef", .get k!"triggerRef") /- 569 -/,
      (k!"setTriggerRef", .set k!"triggerRef" true) /- 578 -/]⟩
   (.node .nil
    -- M2/AUTOSARTemplates/SWComponentTemplate/Datatype/DataPrototypes.py:115
    k!"VariableDataPrototype" ⟨false, some (2, [.sup 2, .field k!"initValue" .none]),
     [(k!"getInitValue", .get k!"initValue") /- 131 -/,
      (k!"setInitValue", .set k!"initValue" false) /- 140 -/]⟩
    .nil))
  -- M2/AUTOSARTemplates/CommonStructure/ImplementationDataTypes.py:346
  k!"ArraySizeSemanticsEnum" ⟨false, some (0, [.sup 1]),
     []⟩
  (.node (.node .nil
    -- M2/AUTOSARTemplates/GenericStructure/GeneralTemplateClasses/PrimitiveTypes.py:479
    k!"BaseTypeEncodingString" ⟨false, some (0, [.sup 0]),
     []⟩
    .nil)
   -- M2/AUTOSARTemplates/BswModuleTemplate/BswBehavior/__init__.py:1923
   k!"BswDataReceptionPolicy" ⟨true, some (0, [.guard k!"BswDataReceptionPolicy", .sup 0, .field k!"receivedDataRef" .none]),
     [(k!"getReceivedDataRef", .get k!"receivedDataRef") /- 1947 -/,
      (k!"setReceivedDataRef", .set k!"receivedDataRef" true) /- 1956 -/]⟩
   (.node .nil
    -- M2/AUTOSARTemplates/BswModuleTemplate/BswBehavior/__init__.py:1846
    k!"BswExclusiveAreaPolicy" ⟨false, some (0, [.sup 0, .field k!"apiPrinciple" .none, .field k!"exclusiveAreaRef" .none]),
     [(k!"getApiPrinciple", .get k!"apiPrinciple") /- 1874 -/,
      (k!"setApiPrinciple", .set k!"apiPrinciple" true) /- 1883 -/,
      (k!"getExclusiveAreaRef", .get k!"exclusiveAreaRef") /- 1898 -/,
      (k!"setExclusiveAreaRef", .set k!"exclusiveAreaRef" true) /- 1907 -/]⟩
    .nil))))

def accTable74 : Bst (ClassAcc) :=
 (.node (.node (.node (.node .nil
    -- M2/MSR/DataDictionary/CalibrationParameter.py:13
    k!"CalprmAxisCategoryEnum" ⟨false, some (0, [.sup 1]),
     []⟩
    .nil)
   -- M2/AUTOSARTemplates/SWComponentTemplate/ApplicationAttributes/__init__.py:278
   k!"ClientServerAnnotation" ⟨false, some (0, [.sup 0, .field k!"operationRef" .none]),
     [(k!"getOperationRef", .get k!"operationRef") /- 296 -/,
      (k!"setOperationRef", .set k!"operationRef" true) /- 305 -/]⟩
   (.node .nil
    -- M2/AUTOSARTemplates/SystemTemplate/Fibex/FibexCore/CoreTopology.py:978
    k!"CommunicationConnector" ⟨true, some (2, [.guard k!"CommunicationConnector", .sup 2, .field k!"commControllerRef" .none, .field k!"createEcuWakeupSource" .none, .field k!"dynamicPncToChannelMappingEnabled" .none, .field k!"ecuCommPortInstances" .nil, .field k!"pncFilterArrayMasks" .nil, .field k!"pncGatewayType" .none]),
     [(k!"getCommControllerRef", .get k!"commControllerRef") /- 1016 -/,
      (k!"setCommControllerRef", .set k!"commControllerRef" false) /- 1019 -/,
      (k!"getCreateEcuWakeupSource", .get k!"createEcuWakeupSource") /- 1023 -/,
      (k!"setCreateEcuWakeupSource", .set k!"createEcuWakeupSource" false) /- 1026 -/,
      (k!"getDynamicPncToChannelMappingEnabled", .get k!"dynamicPncToChannelMappingEnabled") /- 1030 -/,
      (k!"setDynamicPncToChannelMappingEnabled", .set k!"dynamicPncToChannelMappingEnabled" false) /- 1033 -/,
      (k!"getEcuCommPortInstances", .other) /- 1037 -/,
      (k!"createFramePort", .other) /- 1040 -/,
      (k!"createIPduPort", .other) /- 1047 -/,
      (k!"createISignalPort", .other) /- 1054 -/,
      (k!"getPncFilterArrayMasks", .get k!"pncFilterArrayMasks") /- 1061 -/,
      (k!"addPncFilterArrayMask", .add k!"pncFilterArrayMasks" false false) /- 1064 -/,
      (k!"getPncGatewayType", .get k!"pncGatewayType") /- 1068 -/,
      (k!"setPncGatewayType", .set k!"pncGatewayType" false) /- 1071 -/]⟩
    .nil))
  -- M2/AUTOSARTemplates/SystemTemplate/Transformer/__init__.py:1093
  k!"DataPrototypeReference" ⟨true, some (0, [.guard k!"DataPrototypeReference", .sup 0, .field k!"tagId" .none]),
     [(k!"getTagId", .get k!"tagId") /- 1114 -/,
      (k!"setTagId", .set k!"tagId" true) /- 1120 -/]⟩
  (.node (.node .nil
    -- M2/AUTOSARTemplates/SWComponentTemplate/SwcInternalBehavior/RTEEvents.py:121
    k!"DataSendCompletedEvent" ⟨false, some (2, [.sup 2, .field k!"eventSourceRef" .none]),
     [(k!"getEventSourceRef", .get k!"eventSourceRef") /- 137 -/,
      (k!"setEventSourceRef", .set k!"eventSourceRef" false) /- 146 -/]⟩
    .nil)
   -- M2/AUTOSARTemplates/CommonStructure/ServiceNeeds.py:712
   k!"DiagnosticAudienceEnum" ⟨false, some (0, [.sup 1]),
     []⟩
   (.node .nil
    -- M2/AUTOSARTemplates/CommonStructure/ServiceNeeds.py:2294
    k!"DiagnosticControlNeeds" ⟨false, some (2, [.sup 2]),
     []⟩
    .nil)))
 -- M2/AUTOSARTemplates/CommonStructure/ServiceNeeds.py:952
 k!"DiagnosticRoutineNeeds" ⟨false, some (2, [.sup 2, .field k!"diagRoutineType" .none, .field k!"RidNumber" .none]),
     [(k!"getDiagRoutineType", .get k!"diagRoutineType") /- 980 -/,
      (k!"setDiagRoutineType", .set k!"diagRoutineType" false) /- 989 -/,
      (k!"getRidNumber", .get k!"RidNumber") /- 1003 -/,
      (k!"setRidNumber", .set k!"RidNumber" false) /- 1012 -/]⟩
 (.node (.node (.node .nil
    -- M2/AUTOSARTemplates/DiagnosticExtract/DiagnosticContribution.py:18
    k!"DiagnosticServiceTable" ⟨false, some (2, [.sup 2, .field k!"diagnosticConnectionRefs" .nil, .field k!"diagnosticServiceInstanceRefs" .nil, .field k!"ecuInstanceRef" .none, .field k!"protocolKind" .none]),
     [(k!"getDiagnosticConnectionRefs", .get k!"diagnosticConnectionRefs") /- 51 -/,
      (k!"addDiagnosticConnectionRef", .add k!"diagnosticConnectionRefs" true false) /- 60 -/,
      (k!"getDiagnosticServiceInstanceRefs", .get k!"diagnosticServiceInstanceRefs") /- 75 -/,
      (k!"addDiagnosticServiceInstanceRef", .add k!"diagnosticServiceInstanceRefs" true false) /- 84 -/,
      (k!"getEcuInstanceRef", .get k!"ecuInstanceRef") /- 99 -/,
      (k!"setEcuInstanceRef", .set k!"ecuInstanceRef" true) /- 108 -/,
      (k!"getProtocolKind", .get k!"protocolKind") /- 123 -/,
      (k!"setProtocolKind", .set k!"protocolKind" true) /- 132 -/]⟩
    .nil)
   -- M2/MSR/Documentation/TextModel/BlockElements/PaginationAndView.py:5
   k!"DocumentViewSelectable" ⟨true, some (0, [.guard k!"DocumentViewSelectable", .sup 0]),
     []⟩
   (.node .nil
    -- M2/AUTOSARTemplates/SystemTemplate/Fibex/FibexCore/CoreCommunication.py:1831
    k!"DynamicPartAlternative" ⟨false, some (0, [.sup 0, .field k!"initialDynamicPart" .none, .field k!"iPduRef" .none, .field k!"selectorFieldCode" .none]),
     [(k!"getInitialDynamicPart", .get k!"initialDynamicPart") /- 1854 -/,
      (k!"setInitialDynamicPart", .set k!"initialDynamicPart" true) /- 1857 -/,
      (k!"getIPduRef", .get k!"iPduRef") /- 1862 -/,
      (k!"setIPduRef", .set k!"iPduRef" true) /- 1865 -/,
      (k!"getSelectorFieldCode", .get k!"selectorFieldCode") /- 1870 -/,
      (k!"setSelectorFieldCode", .set k!"selectorFieldCode" true) /- 1873 -/]⟩
    .nil))
  -- M2/AUTOSARTemplates/CommonStructure/Timing/TimingConstraint/ExecutionOrderConstraint.py:38
  k!"EOCExecutableEntityRef" ⟨false, some (2, [.sup 2, .field k!"successor_refs" .nil]),
     [(k!"addSuccessorRef", .add k!"successor_refs" false false) /- 54 -/,
      (k!"getSuccessorRefs", .get k!"successor_refs") /- 63 -/]⟩
  (.node (.node .nil
    -- M2/AUTOSARTemplates/ECUCParameterDefTemplate.py:1569
    k!"EcucChoiceContainerDef" ⟨false, some (2, [.sup 2, .field k!"choices" .nil]),
     [(k!"getChoices", .get k!"choices") /- 1585 -/,
      (k!"createEcucParamConfContainerDef", .other) /- 1588 -/]⟩
    .nil)
   -- M2/AUTOSARTemplates/ECUCParameterDefTemplate.py:1055
   k!"EcucChoiceReferenceDef" ⟨false, some (2, [.sup 2, .field k!"destinationRefs" .nil]),
     [(k!"getDestinationRefs", .get k!"destinationRefs") /- 1074 -/,
      (k!"addDestinationRef", .add k!"destinationRefs" true false) /- 1080 -/]⟩
   (.node .nil
    -- M2/AUTOSARTemplates/CommonStructure/FlatMap.py:17
    k!"FlatInstanceDescriptor" ⟨false, some (2, [.sup 2, .field k!"ecuExtractReferenceIRef" .none, .field k!"role" .none, .field k!"rtePluginProps" .none, .field k!"swDataDefProps" .none, .field k!"upstreamReferenceIRef" .none]),
     [(k!"getEcuExtractReferenceIRef", .get k!"ecuExtractReferenceIRef") /- 57 -/,
      (k!"setEcuExtractReferenceIRef", .set k!"ecuExtractReferenceIRef" false) /- 66 -/,
      (k!"getRole", .get k!"role") /- 79 -/,
      (k!"setRole", .set k!"role" false) /- 88 -/,
      (k!"getRtePluginProps", .get k!"rtePluginProps") /- 101 -/,
      (k!"setRtePluginProps", .set k!"rtePluginProps" false) /- 110 -/,
      (k!"getSwDataDefProps", .get k!"swDataDefProps") /- 123 -/,
      (k!"setSwDataDefProps", .set k!"swDataDefProps" false) /- 132 -/,
      (k!"getUpstreamReferenceIRef", .get k!"upstreamReferenceIRef") /- 145 -/,
      (k!"setUpstreamReferenceIRef", .set k!"upstreamReferenceIRef" false) /- 154 -/]⟩
    .nil))))

-- M2/AUTOSARTemplates/BswModuleTemplate/BswBehavior/BswSchedulerNamePrefix.py:8
def accTable75 : Bst (ClassAcc) :=
 .node accTable73 k!"BswSchedulerNamePrefix" ⟨false, some (0, [.sup 0, .field k!"prefix" .none]),
     [(k!"getPrefix", .get k!"prefix") /- 26 -/,
      (k!"setPrefix", .set k!"prefix" false) /- 29 -/]⟩ accTable74

-- M2/AUTOSARTemplates/CommonStructure/ResourceConsumption/ExecutionTime/__init__.py:262
def accTable76 : Bst (ClassAcc) :=
 .node accTable72 k!"MemorySectionLocation" ⟨false, some (0, [.sup 0, .field k!"providedMemoryRef" .none, .field k!"softwareMemorySectionRef" .none]),
     [(k!"getProvidedMemoryRef", .get k!"providedMemoryRef") /- 292 -/,
      (k!"setProvidedMemoryRef", .set k!"providedMemoryRef" true) /- 301 -/,
      (k!"getSoftwareMemorySectionRef", .get k!"softwareMemorySectionRef") /- 315 -/,
      (k!"setSoftwareMemorySectionRef", .set k!"softwareMemorySectionRef" true) /- 324 -/]⟩ accTable75

-- M2/MSR/DataDictionary/DataDefProperties.py:1000
def accTable77 : Bst (ClassAcc) :=
 .node accTable69 k!"SwPointerTargetProps" ⟨false, some (0, [.sup 0, .field k!"functionPointerSignatureRef" .none, .field k!"swDataDefProps" .none, .field k!"targetCategory" .none]),
     [(k!"getFunctionPointerSignatureRef", .get k!"functionPointerSignatureRef") /- 1029 -/,
      (k!"setFunctionPointerSignatureRef", .set k!"functionPointerSignatureRef" true) /- 1035 -/,
      (k!"getSwDataDefProps", .get k!"swDataDefProps") /- 1043 -/,
      (k!"setSwDataDefProps", .set k!"swDataDefProps" true) /- 1049 -/,
      (k!"getTargetCategory", .get k!"targetCategory") /- 1057 -/,
      (k!"setTargetCategory", .set k!"targetCategory" true) /- 1063 -/]⟩ accTable76

def accTable78 : Bst (ClassAcc) :=
 (.node (.node (.node (.node (.node .nil
     -- M2/AUTOSARTemplates/SystemTemplate/Fibex/FibexCore/CoreTopology.py:363
     k!"FlexrayPhysicalChannel" ⟨false, some (2, [.sup 2, .field k!"channelName" .none]),
     [(k!"getChannelName", .get k!"channelName") /- 380 -/,
      (k!"setChannelName", .set k!"channelName" true) /- 383 -/]⟩
     .nil)
    -- M2/AUTOSARTemplates/CommonStructure/ServiceNeeds.py:3222
    k!"FurtherActionByteNeeds" ⟨false, some (2, [.sup 2]),
     []⟩
    .nil)
   -- M2/AUTOSARTemplates/CommonStructure/ServiceNeeds.py:3242
   k!"GlobalSupervisionNeeds" ⟨false, some (2, [.sup 2]),
     []⟩
   (.node .nil
    -- M2/AUTOSARTemplates/CommonStructure/ImplementationDataTypes.py:136
    k!"ImplementationDataType" ⟨false, some (2, [.sup 2, .field k!"dynamicArraySizeProfile" .none, .field k!"isStructWithOptionalElement" .none, .field k!"subElements" .nil, .field k!"symbolProps" .none, .field k!"typeEmitter" .none]),
     [(k!"getDynamicArraySizeProfile", .get k!"dynamicArraySizeProfile") /- 194 -/,
      (k!"setDynamicArraySizeProfile", .set k!"dynamicArraySizeProfile" true) /- 204 -/,
      (k!"getIsStructWithOptionalElement", .get k!"isStructWithOptionalElement") /- 220 -/,
      (k!"setIsStructWithOptionalElement", .set k!"isStructWithOptionalElement" true) /- 231 -/,
      (k!"createImplementationDataTypeElement", .other) /- 248 -/,
      (k!"getSubElements", .get k!"subElements") /- 267 -/,
      (k!"createSymbolProps", .other) /- 276 -/,
      (k!"getSymbolProps", .get k!"symbolProps") /- 293 -/,
      (k!"getTypeEmitter", .get k!"typeEmitter") /- 302 -/,
      (k!"setTypeEmitter", .set k!"typeEmitter" true) /- 312 -/]⟩
    .nil))
  -- M2/AUTOSARTemplates/SystemTemplate/Fibex/Fibex4Ethernet/NetworkEndpoint.py:387
  k!"InfrastructureServices" ⟨false, some (0, [.sup 0, .field k!"doIpEntity" .none, .field k!"timeSynchronization" .none]),
     [(k!"getDoIpEntity", .get k!"doIpEntity") /- 407 -/,
      (k!"setDoIpEntity", .set k!"doIpEntity" false) /- 410 -/,
      (k!"getTimeSynchronization", .get k!"timeSynchronization") /- 414 -/,
      (k!"setTimeSynchronization", .set k!"timeSynchronization" false) /- 417 -/]⟩
  (.node (.node .nil
    -- M2/AUTOSARTemplates/SWComponentTemplate/PortInterface/__init__.py:1218
    k!"ModeDeclarationMapping" ⟨false, some (2, [.sup 2, .field k!"firstModeRefs" .nil, .field k!"secondModeRef" .none]),
     [(k!"getFirstModeRefs", .get k!"firstModeRefs") /- 1242 -/,
      (k!"addFirstModeRef", .add k!"firstModeRefs" true false) /- 1248 -/,
      (k!"getSecondModeRef", .get k!"secondModeRef") /- 1257 -/,
      (k!"setSecondModeRef", .set k!"secondModeRef" true) /- 1263 -/]⟩
    .nil)
   -- M2/AUTOSARTemplates/SWComponentTemplate/Communication.py:1162
   k!"ModeSwitchedAckRequest" ⟨false, some (0, [.sup 0, .field k!"timeout" .none]),
     [(k!"getTimeout", .get k!"timeout") /- 1177 -/,
      (k!"setTimeout", .set k!"timeout" true) /- 1186 -/]⟩
   (.node .nil
    -- M2/MSR/Documentation/TextModel/MultilanguageData.py:13
    k!"MultiLanguageParagraph" ⟨false, some (0, [.sup 0, .field k!"l1" .nil]),
     [(k!"addL1", .add k!"l1" false false) /- 29 -/,
      (k!"getL1s", .get k!"l1") /- 33 -/]⟩
    .nil)))
 -- M2/MSR/Documentation/TextModel/MultilanguageData.py:96
 k!"MultiLanguagePlainText" ⟨false, some (0, [.sup 0, .field k!"l10s" .nil]),
     [(k!"getL10s", .get k!"l10s") /- 115 -/,
      (k!"addL10", .add k!"l10s" true false) /- 124 -/]⟩
 (.node (.node (.node .nil
    -- M2/AUTOSARTemplates/SystemTemplate/Fibex/Fibex4Ethernet/NetworkEndpoint.py:11
    k!"NetworkEndpointAddress" ⟨true, some (0, [.guard k!"NetworkEndpointAddress", .sup 0]),
     []⟩
    .nil)
   -- M2/AUTOSARTemplates/SWComponentTemplate/Communication.py:550
   k!"NonqueuedSenderComSpec" ⟨false, some (0, [.sup 0, .field k!"dataFilter" .none, .field k!"initValue" .none]),
     [(k!"getDataFilter", .get k!"dataFilter") /- 574 -/,
      (k!"setDataFilter", .set k!"dataFilter" true) /- 580 -/,
      (k!"getInitValue", .get k!"initValue") /- 589 -/,
      (k!"setInitValue", .set k!"initValue" true) /- 595 -/]⟩
   (.node .nil
    -- M2/AUTOSARTemplates/SWComponentTemplate/Components/__init__.py:692
    k!"NvBlockSwComponentType" ⟨false, some (2, [.sup 2, .field k!"bulkNvDataDescriptors" .nil, .field k!"nvBlockDescriptors" .nil]),
     [(k!"getBulkNvDataDescriptors", .get k!"bulkNvDataDescriptors") /- 714 -/,
      (k!"createBulkNvDataDescriptor", .other) /- 725 -/,
      (k!"getNvBlockDescriptors", .get k!"nvBlockDescriptors") /- 744 -/,
      (k!"createNvBlockDescriptor", .other) /- 755 -/]⟩
    .nil))
  -- M2/AUTOSARTemplates/CommonStructure/ServiceNeeds.py:3527
  k!"ObdControlServiceNeeds" ⟨false, some (2, [.sup 2]),
     []⟩
  (.node (.node .nil
    -- M2/AUTOSARTemplates/CommonStructure/ServiceNeeds.py:3569
    k!"ObdMonitorServiceNeeds" ⟨false, some (2, [.sup 2, .field k!"applicationDataTypeRef" .none, .field k!"eventNeedsRef" .none, .field k!"unitAndScalingId" .none, .field k!"updateKind" .none]),
     [(k!"getApplicationDataTypeRef", .get k!"applicationDataTypeRef") /- 3609 -/,
      (k!"setApplicationDataTypeRef", .set k!"applicationDataTypeRef" true) /- 3618 -/,
      (k!"getEventNeedsRef", .get k!"eventNeedsRef") /- 3633 -/,
      (k!"setEventNeedsRef", .set k!"eventNeedsRef" true) /- 3642 -/,
      (k!"getUnitAndScalingId", .get k!"unitAndScalingId") /- 3657 -/,
      (k!"setUnitAndScalingId", .set k!"unitAndScalingId" true) /- 3666 -/,
      (k!"getUpdateKind", .get k!"updateKind") /- 3681 -/,
      (k!"setUpdateKind", .set k!"updateKind" true) /- 3690 -/]⟩
    .nil)
   -- M2/AUTOSARTemplates/CommonStructure/Timing/TimingConstraint/OffsetConstraint.py:16
   k!"OffsetTimingConstraint" ⟨false, some (2, [.sup 2, .field k!"offset" .none]),
     [(k!"getOffset", .get k!"offset") /- 41 -/,
      (k!"setOffset", .set k!"offset" false) /- 50 -/]⟩
   (.node .nil
    -- M2/AUTOSARTemplates/CommonStructure/ServiceNeeds.py:3895
    k!"OperationCycleTypeEnum" ⟨false, some (0, [.sup 1]),
     []⟩
    .nil))))

def accTable79 : Bst (ClassAcc) :=
 (.node (.node (.node (.node (.node .nil
     -- M2/AUTOSARTemplates/SWComponentTemplate/Composition/__init__.py:142
     k!"PassThroughSwConnector" ⟨false, some (2, [.sup 2, .field k!"providedOuterPortRef" .none, .field k!"requiredOuterPortRef" .none]),
     [(k!"getProvidedOuterPortRef", .get k!"providedOuterPortRef") /- 166 -/,
      (k!"setProvidedOuterPortRef", .set k!"providedOuterPortRef" true) /- 175 -/,
      (k!"getRequiredOuterPortRef", .get k!"requiredOuterPortRef") /- 190 -/,
      (k!"setRequiredOuterPortRef", .set k!"requiredOuterPortRef" true) /- 199 -/]⟩
     .nil)
    -- M2/AUTOSARTemplates/SystemTemplate/Fibex/Fibex4Multiplatform.py:133
    k!"PduMappingDefaultValue" ⟨false, some (0, [.sup 0, .field k!"defaultValueElements" .nil]),
     [(k!"getDefaultValueElements", .get k!"defaultValueElements") /- 149 -/,
      (k!"addDefaultValueElements", .set k!"defaultValueElements" true) /- 152 -/]⟩
    .nil)
   -- M2/AUTOSARTemplates/CommonStructure/StandardizationTemplate/BlueprintDedicated/PortPrototypeBlueprint.py:89
   k!"PortPrototypeBlueprint" ⟨false, some (2, [.sup 2, .field k!"initValues" .nil, .field k!"interfaceRef" .none, .field k!"providedComSpecs" .nil, .field k!"requiredComSpecs" .nil]),
     [(k!"getInitValues", .get k!"initValues") /- 115 -/,
      (k!"setInitValues", .set k!"initValues" true) /- 124 -/,
      (k!"getInterfaceRef", .get k!"interfaceRef") /- 138 -/,
      (k!"setInterfaceRef", .set k!"interfaceRef" true) /- 147 -/,
      (k!"getProvidedComSpecs", .get k!"providedComSpecs") /- 161 -/,
      (k!"setProvidedComSpecs", .set k!"providedComSpecs" true) /- 170 -/,
      (k!"getRequiredComSpecs", .get k!"requiredComSpecs") /- 184 -/,
      (k!"setRequiredComSpecs", .set k!"requiredComSpecs" true) /- 193 -/]⟩
   (.node .nil
    -- M2/AUTOSARTemplates/GenericStructure/GeneralTemplateClasses/PrimitiveTypes.py:519
    k!"ReferrableSubtypesEnum" ⟨false, some (0, [.sup 0]),
     []⟩
    .nil))
  -- M2/AUTOSARTemplates/CommonStructure/ResourceConsumption/HeapUsage.py:268
  k!"RoughEstimateHeapUsage" ⟨false, some (2, [.sup 2, .field k!"memoryConsumption" .none]),
     [(k!"getMemoryConsumption", .get k!"memoryConsumption") /- 293 -/,
      (k!"setMemoryConsumption", .set k!"memoryConsumption" true) /- 302 -/]⟩
  (.node (.node .nil
    -- M2/AUTOSARTemplates/CommonStructure/MeasurementCalibrationSupport/RptSupport/__init__.py:47
    k!"RptEnablerImplTypeEnum" ⟨false, some (0, [.sup 1]),
     []⟩
    .nil)
   -- M2/AUTOSARTemplates/CommonStructure/MeasurementCalibrationSupport/RptSupport/__init__.py:159
   k!"RptSwPrototypingAccess" ⟨false, some (0, [.sup 0, .field k!"rptHookAccess" .none, .field k!"rptReadAccess" .none, .field k!"rptWriteAccess" .none]),
     [(k!"getRptHookAccess", .get k!"rptHookAccess") /- 190 -/,
      (k!"setRptHookAccess", .set k!"rptHookAccess" true) /- 199 -/,
      (k!"getRptReadAccess", .get k!"rptReadAccess") /- 214 -/,
      (k!"setRptReadAccess", .set k!"rptReadAccess" true) /- 223 -/,
      (k!"getRptWriteAccess", .get k!"rptWriteAccess") /- 238 -/,
      (k!"setRptWriteAccess", .set k!"rptWriteAccess" true) /- 247 -/]⟩
   (.node .nil
    -- M2/AUTOSARTemplates/SWComponentTemplate/SwcInternalBehavior/__init__.py:39
    k!"RunnableEntityArgument" ⟨false, some (0, [.sup 0, .field k!"symbol" .none]),
     [(k!"getSymbol", .get k!"symbol") /- 50 -/,
      (k!"setSymbol", .set k!"symbol" false) /- 53 -/]⟩
    .nil)))
 -- M2/AUTOSARTemplates/SWComponentTemplate/Components/__init__.py:842
 k!"ServiceSwComponentType" ⟨false, some (2, [.sup 2]),
     []⟩
 (.node (.node (.node .nil
    -- M2/AUTOSARTemplates/CommonStructure/ResourceConsumption/ExecutionTime/__init__.py:535
    k!"SimulatedExecutionTime" ⟨false, some (2, [.sup 2, .field k!"maximumExecutionTime" .none, .field k!"minimumExecutionTime" .none, .field k!"nominalExecutionTime" .none]),
     [(k!"getMaximumExecutionTime", .get k!"maximumExecutionTime") /- 575 -/,
      (k!"setMaximumExecutionTime", .set k!"maximumExecutionTime" true) /- 584 -/,
      (k!"getMinimumExecutionTime", .get k!"minimumExecutionTime") /- 598 -/,
      (k!"setMinimumExecutionTime", .set k!"minimumExecutionTime" true) /- 607 -/,
      (k!"getNominalExecutionTime", .get k!"nominalExecutionTime") /- 621 -/,
      (k!"setNominalExecutionTime", .set k!"nominalExecutionTime" true) /- 630 -/]⟩
    .nil)
   -- M2/AUTOSARTemplates/SystemTemplate/Fibex/Fibex4Ethernet/EthernetCommunication.py:231
   k!"SocketConnectionBundle" ⟨false, some (2, [.sup 2, .field k!"bundledConnections" .nil, .field k!"differentiatedServiceField" .none, .field k!"flowLabel" .none, .field k!"pathMtuDiscoveryEnabled" .none, .field k!"pdus" .nil, .field k!"serverPortRef" .none, .field k!"udpChecksumHandling" .none]),
     [(k!"getBundledConnections", .get k!"bundledConnections") /- 266 -/,
      (k!"addBundledConnection", .add k!"bundledConnections" false false) /- 269 -/,
      (k!"getDifferentiatedServiceField", .get k!"differentiatedServiceField") /- 273 -/,
      (k!"setDifferentiatedServiceField", .set k!"differentiatedServiceField" false) /- 276 -/,
      (k!"getFlowLabel", .get k!"flowLabel") /- 280 -/,
      (k!"setFlowLabel", .set k!"flowLabel" false) /- 283 -/,
      (k!"getPathMtuDiscoveryEnabled", .get k!"pathMtuDiscoveryEnabled") /- 287 -/,
      (k!"setPathMtuDiscoveryEnabled", .set k!"pathMtuDiscoveryEnabled" false) /- 290 -/,
      (k!"getPdus", .get k!"pdus") /- 294 -/,
      (k!"setPdus", .set k!"pdus" false) /- 297 -/,
      (k!"getServerPortRef", .get k!"serverPortRef") /- 301 -/,
      (k!"setServerPortRef", .set k!"serverPortRef" false) /- 304 -/,
      (k!"getUdpChecksumHandling", .get k!"udpChecksumHandling") /- 308 -/,
      (k!"setUdpChecksumHandling", .set k!"udpChecksumHandling" false) /- 311 -/]⟩
   (.node .nil
    -- M2/AUTOSARTemplates/AdaptivePlatform/PlatformModuleDeployment/Firewall/StateDependentFirewall.py:6
    k!"StateDependentFirewall" ⟨false, some (0, [.sup 0, .field k!"firewallRules" .nil, .field k!"stateRef" .none]),
     [(k!"addFirewallRule", .add k!"firewallRules" false false) /- 27 -/,
      (k!"getFirewallRules", .get k!"firewallRules") /- 40 -/,
      (k!"getStateRef", .get k!"stateRef") /- 49 -/,
      (k!"setStateRef", .set k!"stateRef" false) /- 58 -/]⟩
    .nil))
  -- M2/AUTOSARTemplates/SWComponentTemplate/SwcInternalBehavior/__init__.py:714
  k!"SwcExclusiveAreaPolicy" ⟨false, some (0, [.sup 0, .field k!"apiPrinciple" .none, .field k!"exclusiveAreaRef" .none]),
     [(k!"getApiPrinciple", .get k!"apiPrinciple") /- 743 -/,
      (k!"setApiPrinciple", .set k!"apiPrinciple" true) /- 747 -/,
      (k!"getExclusiveAreaRef", .get k!"exclusiveAreaRef") /- 757 -/,
      (k!"setExclusiveAreaRef", .set k!"exclusiveAreaRef" true) /- 761 -/]⟩
  (.node (.node .nil
    -- M2/AUTOSARTemplates/CommonStructure/Constants/__init__.py:262
    k!"TextValueSpecification" ⟨false, some (0, [.sup 0, .field k!"value" .none]),
     [(k!"getValue", .get k!"value") /- 282 -/,
      (k!"setValue", .set k!"value" false) /- 291 -/]⟩
    .nil)
   -- M2/AUTOSARTemplates/CommonStructure/Timing/TimingCondition/TimingConditionFormula.py:4
   k!"TimingConditionFormula" ⟨false, some (0, [.sup 0, .field k!"expression" .none]),
     [(k!"getExpression", .get k!"expression") /- 22 -/,
      (k!"setExpression", .set k!"expression" false) /- 31 -/]⟩
   (.node .nil
    -- M2/MSR/Documentation/Chapters.py:636
    k!"TopicContentOrMsrQuery" ⟨false, some (0, [.sup 0, .field k!"msrQueryP1" .none, .field k!"topicContent" .none]),
     [(k!"setMsrQueryP1", .set k!"msrQueryP1" true) /- 662 -/,
      (k!"getMsrQueryP1", .get k!"msrQueryP1") /- 675 -/,
      (k!"setTopicContent", .set k!"topicContent" true) /- 684 -/,
      (k!"getTopicContent", .get k!"topicContent") /- 697 -/]⟩
    .nil))))

-- M2/AUTOSARTemplates/SWComponentTemplate/Datatype/DataPrototypes.py:348
def accTable80 : Bst (ClassAcc) :=
 .node accTable78 k!"ParameterDataPrototype" ⟨false, some (2, [.sup 2, .field k!"initValue" .none]),
     [(k!"getInitValue", .get k!"initValue") /- 366 -/,
      (k!"setInitValue", .set k!"initValue" true) /- 375 -/]⟩ accTable79

def accTable81 : Bst (ClassAcc) :=
 (.node (.node (.node (.node (.node .nil
     -- M2/AUTOSARTemplates/SystemTemplate/Fibex/Fibex4Ethernet/ServiceInstances.py:238
     k!"AbstractServiceInstance" ⟨true, some (2, [.guard k!"AbstractServiceInstance", .sup 2, .field k!"capabilityRecords" .nil, .field k!"majorVersion" .none, .field k!"methodActivationRoutingGroup" .none, .field k!"routingGroupRefs" .nil]),
     [(k!"getCapabilityRecords", .get k!"capabilityRecords") /- 267 -/,
      (k!"addCapabilityRecord", .add k!"capabilityRecords" true false) /- 270 -/,
      (k!"getMajorVersion", .get k!"majorVersion") /- 275 -/,
      (k!"setMajorVersion", .set k!"majorVersion" true) /- 278 -/,
      (k!"getMethodActivationRoutingGroup", .get k!"methodActivationRoutingGroup") /- 283 -/,
      (k!"setMethodActivationRoutingGroup", .set k!"methodActivationRoutingGroup" true) /- 286 -/,
      (k!"getRoutingGroupRefs", .get k!"routingGroupRefs") /- 291 -/,
      (k!"addRoutingGroupRef", .add k!"routingGroupRefs" true false) /- 294 -/]⟩
     .nil)
    -- M2/AUTOSARTemplates/SWComponentTemplate/Datatype/DataPrototypes.py:181
    k!"ApplicationArrayElement" ⟨false, some (2, [.sup 2, .field k!"arraySizeHandling" .none, .field k!"arraySizeSemantics" .none, .field k!"indexDataTypeRef" .none, .field k!"maxNumberOfElements" .none]),
     [(k!"getArraySizeHandling", .get k!"arraySizeHandling") /- 215 -/,
      (k!"setArraySizeHandling", .set k!"arraySizeHandling" true) /- 224 -/,
      (k!"getArraySizeSemantics", .get k!"arraySizeSemantics") /- 238 -/,
      (k!"setArraySizeSemantics", .set k!"arraySizeSemantics" true) /- 247 -/,
      (k!"getIndexDataTypeRef", .get k!"indexDataTypeRef") /- 261 -/,
      (k!"setIndexDataTypeRef", .set k!"indexDataTypeRef" true) /- 270 -/,
      (k!"getMaxNumberOfElements", .get k!"maxNumberOfElements") /- 284 -/,
      (k!"setMaxNumberOfElements", .set k!"maxNumberOfElements" true) /- 293 -/]⟩
    .nil)
   -- M2/AUTOSARTemplates/CommonStructure/Constants/__init__.py:351
   k!"ArrayValueSpecification" ⟨false, some (0, [.sup 0, .field k!"element" .nil, .field k!"intendedPartialInitializationCount" .none]),
     [(k!"getIntendedPartialInitializationCount", .get k!"intendedPartialInitializationCount") /- 375 -/,
      (k!"setIntendedPartialInitializationCount", .set k!"intendedPartialInitializationCount" false) /- 384 -/,
      (k!"addElement", .add k!"element" false false) /- 398 -/,
      (k!"getElements", .get k!"element") /- 407 -/]⟩
   (.node .nil
    -- M2/AUTOSARTemplates/BswModuleTemplate/BswInterfaces.py:664
    k!"BswEntryRelationshipSet" ⟨false, some (2, [.sup 2, .field k!"bswEntryRelationships" .nil]),
     [(k!"getBswEntryRelationships", .get k!"bswEntryRelationships") /- 689 -/,
      (k!"addBswEntryRelationship", .add k!"bswEntryRelationships" true false) /- 698 -/]⟩
    .nil))
  -- M2/AUTOSARTemplates/BswModuleTemplate/BswBehavior/__init__.py:1433
  k!"BswModeSwitchAckRequest" ⟨false, some (0, [.sup 0, .field k!"timeout" .none]),
     [(k!"getTimeout", .get k!"timeout") /- 1453 -/,
      (k!"setTimeout", .set k!"timeout" false) /- 1462 -/]⟩
  (.node (.node .nil
    -- M2/AUTOSARTemplates/BswModuleTemplate/BswBehavior/__init__.py:1160
    k!"BswModeSwitchedAckEvent" ⟨false, some (2, [.sup 2, .field k!"modeGroupRef" .none]),
     [(k!"getModeGroupRef", .get k!"modeGroupRef") /- 1191 -/,
      (k!"setModeGroupRef", .set k!"modeGroupRef" true) /- 1201 -/]⟩
    .nil)
   -- M2/AUTOSARTemplates/BswModuleTemplate/BswBehavior/__init__.py:1728
   k!"BswOsTaskExecutionEvent" ⟨false, some (2, [.sup 2]),
     []⟩
   (.node .nil
    -- M2/AUTOSARTemplates/SystemTemplate/Fibex/FibexCore/CoreTopology.py:713
    k!"CommunicationController" ⟨true, some (2, [.guard k!"CommunicationController", .sup 2, .field k!"wakeUpByControllerSupported" .none]),
     [(k!"getWakeUpByControllerSupported", .get k!"wakeUpByControllerSupported") /- 733 -/,
      (k!"setWakeUpByControllerSupported", .set k!"wakeUpByControllerSupported" true) /- 739 -/]⟩
    .nil)))
 -- M2/AUTOSARTemplates/SystemTemplate/Fibex/Fibex4Ethernet/ServiceInstances.py:414
 k!"ConsumedServiceInstance" ⟨false, some (2, [.sup 2, .field k!"allowedServiceProviderRefs" .nil, .field k!"autoRequire" .none, .field k!"blocklistedVersions" .nil, .field k!"consumedEventGroups" .nil, .field k!"eventMulticastSubscriptionAddressRef" .none, .field k!"instanceIdentifier" .none, .field k!"localUnicastAddressRefs" .nil, .field k!"minorVersion" .none, .field k!"providedServiceInstanceRef" .none, .field k!"remoteUnicastAddressRefs" .nil, .field k!"sdClientConfig" .none, .field k!"sdClientTimerConfigRef" .none, .field k!"serviceIdentifier" .none, .field k!"versionDrivenFindBehavior" .none]),
     [(k!"getAllowedServiceProviderRefs", .get k!"allowedServiceProviderRefs") /- 470 -/,
      (k!"setAllowedServiceProviderRefs", .set k!"allowedServiceProviderRefs" true) /- 473 -/,
      (k!"getAutoRequire", .get k!"autoRequire") /- 478 -/,
      (k!"setAutoRequire", .set k!"autoRequire" true) /- 481 -/,
      (k!"getBlocklistedVersions", .get k!"blocklistedVersions") /- 486 -/,
      (k!"setBlocklistedVersions", .set k!"blocklistedVersions" true) /- 489 -/,
      (k!"getConsumedEventGroups", .get k!"consumedEventGroups") /- 494 -/,
      (k!"createConsumedEventGroup", .other) /- 497 -/,
      (k!"getEventMulticastSubscriptionAddressRef", .get k!"eventMulticastSubscriptionAddressRef") /- 504 -/,
      (k!"setEventMulticastSubscriptionAddressRef", .set k!"eventMulticastSubscriptionAddressRef" true) /- 507 -/,
      (k!"getInstanceIdentifier", .get k!"instanceIdentifier") /- 512 -/,
      (k!"setInstanceIdentifier", .set k!"instanceIdentifier" true) /- 515 -/,
      (k!"getLocalUnicastAddressRefs", .get k!"localUnicastAddressRefs") /- 520 -/,
      (k!"setLocalUnicastAddressRefs", .set k!"localUnicastAddressRefs" true) /- 523 -/,
      (k!"getMinorVersion", .get k!"minorVersion") /- 528 -/,
      (k!"setMinorVersion", .set k!"minorVersion" true) /- 531 -/,
      (k!"getProvidedServiceInstanceRef", .get k!"providedServiceInstanceRef") /- 536 -/,
      (k!"setProvidedServiceInstanceRef", .set k!"providedServiceInstanceRef" true) /- 539 -/,
      (k!"getRemoteUnicastAddressRefs", .get k!"remoteUnicastAddressRefs") /- 544 -/,
      (k!"setRemoteUnicastAddressRefs", .set k!"remoteUnicastAddressRefs" true) /- 547 -/,
      (k!"getSdClientConfig", .get k!"sdClientConfig") /- 552 -/,
      (k!"setSdClientConfig", .set k!"sdClientConfig" true) /- 555 -/,
      (k!"getSdClientTimerConfigRef", .get k!"sdClientTimerConfigRef") /- 560 -/,
      (k!"setSdClientTimerConfigRef", .set k!"sdClientTimerConfigRef" true) /- 563 -/,
      (k!"getServiceIdentifier", .get k!"serviceIdentifier") /- 568 -/,
      (k!"setServiceIdentifier", .set k!"serviceIdentifier" true) /- 571 -/,
      (k!"getVersionDrivenFindBehavior", .get k!"versionDrivenFindBehavior") /- 576 -/,
      (k!"setVersionDrivenFindBehavior", .set k!"versionDrivenFindBehavior" true) /- 579 -/]⟩
 (.node (.node (.node .nil
    -- M2/AUTOSARTemplates/SWComponentTemplate/SwcInternalBehavior/RTEEvents.py:160
    k!"DataWriteCompletedEvent" ⟨false, some (2, [.sup 2, .field k!"eventSourceRef" .none]),
     [(k!"getEventSourceRef", .get k!"eventSourceRef") /- 176 -/,
      (k!"setEventSourceRef", .set k!"eventSourceRef" false) /- 185 -/]⟩
    .nil)
   -- M2/AUTOSARTemplates/SWComponentTemplate/ApplicationAttributes/__init__.py:594
   k!"DelegatedPortAnnotation" ⟨false, some (0, [.sup 0, .field k!"signalFan" .none]),
     [(k!"getSignalFan", .get k!"signalFan") /- 612 -/,
      (k!"setSignalFan", .set k!"signalFan" true) /- 621 -/]⟩
   (.node .nil
    -- M2/AUTOSARTemplates/GenericStructure/GeneralTemplateClasses/PrimitiveTypes.py:1129
    k!"DiagRequirementIdString" ⟨false, some (0, [.sup 0]),
     []⟩
    .nil))
  -- M2/AUTOSARTemplates/DiagnosticExtract/DiagnosticCommonElement.py:7
  k!"DiagnosticCommonElement" ⟨true, some (2, [.guard k!"DiagnosticCommonElement", .sup 2]),
     []⟩
  (.node (.node .nil
    -- M2/MSR/DataDictionary/DataDefProperties.py:94
    k!"DisplayPresentationEnum" ⟨false, some (0, [.sup 1]),
     []⟩
    .nil)
   -- M2/AUTOSARTemplates/CommonStructure/ServiceNeeds.py:2746
   k!"DoIpActivationLineNeeds" ⟨false, some (2, [.sup 2]),
     []⟩
   (.node .nil
    -- M2/AUTOSARTemplates/ECUCParameterDefTemplate.py:1471
    k!"EcucEnumerationParamDef" ⟨false, some (2, [.sup 2, .field k!"defaultValue" .none, .field k!"literals" .nil]),
     [(k!"getDefaultValue", .get k!"defaultValue") /- 1490 -/,
      (k!"setDefaultValue", .set k!"defaultValue" true) /- 1496 -/,
      (k!"getLiterals", .get k!"literals") /- 1505 -/,
      (k!"createLiteral", .other) /- 1511 -/]⟩
    .nil))))

def accTable82 : Bst (ClassAcc) :=
 (.node (.node (.node (.node .nil
    -- M2/AUTOSARTemplates/ECUCDescriptionTemplate.py:183
    k!"EcucNumericalParamValue" ⟨false, some (0, [.sup 0, .field k!"value" .none]),
     [(k!"getValue", .get k!"value") /- 198 -/,
      (k!"setValue", .set k!"value" false) /- 201 -/]⟩
    .nil)
   -- M2/AUTOSARTemplates/ECUCParameterDefTemplate.py:101
   k!"EcucValidationCondition" ⟨false, some (2, [.sup 2, .field k!"ecucQueries" .nil, .field k!"validationFormula" .none]),
     [(k!"getEcucQueries", .get k!"ecucQueries") /- 125 -/,
      (k!"createEcucQuery", .other) /- 131 -/,
      (k!"getEcucQuery", .other) /- 144 -/,
      (k!"getValidationFormula", .get k!"validationFormula") /- 153 -/,
      (k!"setValidationFormula", .set k!"validationFormula" true) /- 159 -/]⟩
   (.node .nil
    -- M2/AUTOSARTemplates/SystemTemplate/Fibex/FibexCore/CoreTopology.py:295
    k!"EthernetPhysicalChannel" ⟨false, some (2, [.sup 2, .field k!"networkEndpoints" .nil, .field k!"soAdConfig" .none, .field k!"vlan" .none]),
     [(k!"getNetworkEndpoints", .get k!"networkEndpoints") /- 318 -/,
      (k!"createNetworkEndPoint", .other) /- 321 -/,
      (k!"getSoAdConfig", .get k!"soAdConfig") /- 328 -/,
      (k!"setSoAdConfig", .set k!"soAdConfig" false) /- 331 -/,
      (k!"getVlan", .get k!"vlan") /- 335 -/,
      (k!"createVlanConfig", .other) /- 338 -/]⟩
    .nil))
  -- M2/AUTOSARTemplates/CommonStructure/Timing/TimingConstraint/SynchronizationTiming.py:41
  k!"EventOccurrenceKindEnum" ⟨false, some (0, [.sup 1]),
     []⟩
  (.node (.node .nil
    -- M2/AUTOSARTemplates/CommonStructure/Timing/TimingConstraint/ExecutionTimeConstraint.py:41
    k!"ExecutionTimeConstraint" ⟨false, some (2, [.sup 2, .field k!"execution_type" .none, .field k!"execution_time" .none]),
     [(k!"getExecutionType", .get k!"execution_type") /- 70 -/,
      (k!"setExecutionType", .set k!"execution_type" false) /- 79 -/,
      (k!"getExecutionTime", .get k!"execution_time") /- 92 -/,
      (k!"setExecutionTime", .set k!"execution_time" false) /- 101 -/]⟩
    .nil)
   -- M2/AUTOSARTemplates/SWComponentTemplate/SwcInternalBehavior/Trigger.py:71
   k!"ExternalTriggeringPoint" ⟨false, some (0, [.sup 0, .field k!"ident" .none, .field k!"trigger" .none]),
     [(k!"createIdent", .other) /- 100 -/,
      (k!"getIdent", .get k!"ident") /- 111 -/,
      (k!"getTrigger", .get k!"trigger") /- 120 -/,
      (k!"setTrigger", .set k!"trigger" true) /- 130 -/]⟩
   (.node .nil
    -- M2/AUTOSARTemplates/CommonStructure/ServiceNeeds.py:3202
    k!"FunctionInhibitionNeeds" ⟨false, some (2, [.sup 2]),
     []⟩
    .nil)))
 -- M2/AUTOSARTemplates/AdaptivePlatform/PlatformModuleDeployment/IntrusionDetectionSystem/IdsmModuleInstantiation.py:9
 k!"IdsmModuleInstantiation" ⟨false, some (2, [.sup 2]),
     []⟩
 (.node (.node (.node .nil
    -- M2/AUTOSARTemplates/SWComponentTemplate/SwcInternalBehavior/Trigger.py:19
    k!"InternalTriggeringPoint" ⟨false, some (2, [.sup 2, .field k!"swImplPolicy" .none]),
     [(k!"getSwImplPolicy", .get k!"swImplPolicy") /- 35 -/,
      (k!"setSwImplPolicy", .set k!"swImplPolicy" true) /- 44 -/]⟩
    .nil)
   -- M2/AUTOSARTemplates/CommonStructure/Timing/TimingConstraint/LatencyTimingConstraint.py:41
   k!"LatencyTimingConstraint" ⟨false, some (2, [.sup 2, .field k!"latency_type" .none, .field k!"latency" .none]),
     [(k!"getLatencyType", .get k!"latency_type") /- 70 -/,
      (k!"setLatencyType", .set k!"latency_type" false) /- 79 -/,
      (k!"getLatency", .get k!"latency") /- 92 -/,
      (k!"setLatency", .set k!"latency" false) /- 101 -/]⟩
   (.node .nil
    -- M2/AUTOSARTemplates/CommonStructure/MeasurementCalibrationSupport/__init__.py:366
    k!"McParameterElementGroup" ⟨false, some (0, [.sup 0, .field k!"ramLocationRef" .none, .field k!"romLocationRef" .none, .field k!"shortLabel" .none]),
     [(k!"getRamLocationRef", .get k!"ramLocationRef") /- 397 -/,
      (k!"setRamLocationRef", .set k!"ramLocationRef" true) /- 406 -/,
      (k!"getRomLocationRef", .get k!"romLocationRef") /- 421 -/,
      (k!"setRomLocationRef", .set k!"romLocationRef" true) /- 430 -/,
      (k!"getShortLabel", .get k!"shortLabel") /- 445 -/,
      (k!"setShortLabel", .set k!"shortLabel" true) /- 454 -/]⟩
    .nil))
  -- M2/MSR/Documentation/TextModel/LanguageDataModel.py:219
  k!"MixedContentForLongName" ⟨true, some (0, [.guard k!"MixedContentForLongName", .sup 0, .field k!"e" .none, .field k!"ie" .none, .field k!"sub" .none, .field k!"sup" .none, .field k!"tt" .none]),
     [(k!"getE", .get k!"e") /- 261 -/,
      (k!"setE", .set k!"e" true) /- 267 -/,
      (k!"getIe", .get k!"ie") /- 275 -/,
      (k!"setIe", .set k!"ie" true) /- 281 -/,
      (k!"getSub", .get k!"sub") /- 289 -/,
      (k!"setSub", .set k!"sub" true) /- 295 -/,
      (k!"getSup", .get k!"sup") /- 303 -/,
      (k!"setSup", .set k!"sup" true) /- 309 -/,
      (k!"getTt", .get k!"tt") /- 317 -/,
      (k!"setTt", .set k!"tt" true) /- 323 -/]⟩
  (.node (.node .nil
    -- M2/AUTOSARTemplates/SWComponentTemplate/Communication.py:1202
    k!"ModeSwitchSenderComSpec" ⟨false, some (0, [.sup 0, .field k!"enhancedModeApi" .none, .field k!"modeGroupRef" .none, .field k!"modeSwitchedAck" .none, .field k!"queueLength" .none]),
     [(k!"getEnhancedModeApi", .get k!"enhancedModeApi") /- 1226 -/,
      (k!"setEnhancedModeApi", .set k!"enhancedModeApi" false) /- 1235 -/,
      (k!"getModeGroupRef", .get k!"modeGroupRef") /- 1249 -/,
      (k!"setModeGroupRef", .set k!"modeGroupRef" false) /- 1258 -/,
      (k!"getModeSwitchedAck", .get k!"modeSwitchedAck") /- 1272 -/,
      (k!"setModeSwitchedAck", .set k!"modeSwitchedAck" false) /- 1281 -/,
      (k!"getQueueLength", .get k!"queueLength") /- 1295 -/,
      (k!"setQueueLength", .set k!"queueLength" false) /- 1304 -/]⟩
    .nil)
   -- M2/AUTOSARTemplates/GenericStructure/GeneralTemplateClasses/Identifiable.py:186
   k!"MultilanguageReferrable" ⟨true, some (2, [.guard k!"MultilanguageReferrable", .sup 2, .field k!"longName" .none]),
     [(k!"getLongName", .get k!"longName") /- 206 -/,
      (k!"setLongName", .set k!"longName" false) /- 215 -/]⟩
   (.node .nil
    -- M2/AUTOSARTemplates/GenericStructure/GeneralTemplateClasses/PrimitiveTypes.py:459
    k!"NativeDeclarationString" ⟨false, some (0, [.sup 0]),
     []⟩
    .nil))))

-- M2/AUTOSARTemplates/ECUCParameterDefTemplate.py:1156
def accTable83 : Bst (ClassAcc) :=
 .node accTable81 k!"EcucForeignReferenceDef" ⟨false, some (2, [.sup 2, .field k!"destinationType" .none]),
     [(k!"getDestinationType", .get k!"destinationType") /- 1174 -/,
      (k!"setDestinationType", .set k!"destinationType" true) /- 1180 -/]⟩ accTable82

-- M2/AUTOSARTemplates/SystemTemplate/Fibex/FibexCore/Timing.py:168
def accTable84 : Bst (ClassAcc) :=
 .node accTable80 k!"TransmissionModeTiming" ⟨false, some (0, [.sup 0, .field k!"cyclicTiming" .none, .field k!"eventControlledTiming" .none]),
     [(k!"getCyclicTiming", .get k!"cyclicTiming") /- 188 -/,
      (k!"setCyclicTiming", .set k!"cyclicTiming" false) /- 191 -/,
      (k!"getEventControlledTiming", .get k!"eventControlledTiming") /- 195 -/,
      (k!"setEventControlledTiming", .set k!"eventControlledTiming" false) /- 198 -/]⟩ accTable83

def accTable85 : Bst (ClassAcc) :=
 (.node (.node (.node (.node (.node .nil
     -- M2/AUTOSARTemplates/SWComponentTemplate/Communication.py:1319
     k!"ParameterProvideComSpec" ⟨false, some (0, [.sup 0, .field k!"initValue" .none, .field k!"parameterRef" .none]),
     [(k!"getInitValue", .get k!"initValue") /- 1343 -/,
      (k!"setInitValue", .set k!"initValue" true) /- 1349 -/,
      (k!"getParameterRef", .get k!"parameterRef") /- 1358 -/,
      (k!"setParameterRef", .set k!"parameterRef" true) /- 1364 -/]⟩
     .nil)
    -- M2/AUTOSARTemplates/SWComponentTemplate/Communication.py:839
    k!"ParameterRequireComSpec" ⟨false, some (0, [.sup 0, .field k!"initValue" .none, .field k!"parameterRef" .none]),
     [(k!"getInitValue", .get k!"initValue") /- 858 -/,
      (k!"setInitValue", .set k!"initValue" false) /- 867 -/,
      (k!"getParameterRef", .get k!"parameterRef") /- 881 -/,
      (k!"setParameterRef", .set k!"parameterRef" false) /- 890 -/]⟩
    .nil)
   -- M2/AUTOSARTemplates/CommonStructure/Timing/TimingConstraint/EventTriggeringConstraint.py:43
   k!"PeriodicEventTriggering" ⟨false, some (2, [.sup 2, .field k!"period" .none]),
     [(k!"getPeriod", .get k!"period") /- 67 -/,
      (k!"setPeriod", .set k!"period" false) /- 70 -/]⟩
   (.node .nil
    -- M2/AUTOSARTemplates/SWComponentTemplate/PortInterface/__init__.py:1295
    k!"PortInterfaceMappingSet" ⟨false, some (2, [.sup 2, .field k!"portInterfaceMappings" .nil]),
     [(k!"getPortInterfaceMappings", .get k!"portInterfaceMappings") /- 1309 -/,
      (k!"createVariableAndParameterInterfaceMapping", .other) /- 1312 -/,
      (k!"createClientServerInterfaceMapping", .other) /- 1319 -/,
      (k!"createModeInterfaceMapping", .other) /- 1326 -/,
      (k!"createTriggerInterfaceMapping", .other) /- 1333 -/]⟩
    .nil))
  -- M2/AUTOSARTemplates/CommonStructure/Implementation.py:57
  k!"ProgramminglanguageEnum" ⟨false, some (0, [.sup 1]),
     []⟩
  (.node (.node .nil
    -- M2/AUTOSARTemplates/SystemTemplate/Fibex/Fibex4Ethernet/ServiceInstances.py:806
    k!"ProvidedServiceInstance" ⟨false, some (2, [.sup 2, .field k!"allowedServiceConsumerRefs" .nil, .field k!"autoAvailable" .none, .field k!"eventHandlers" .nil, .field k!"instanceIdentifier" .none, .field k!"loadBalancingPriority" .none, .field k!"loadBalancingWeight" .none, .field k!"localUnicastAddressRefs" .nil, .field k!"minorVersion" .none, .field k!"priority" .none, .field k!"remoteMulticastSubscriptionAddressRefs" .nil, .field k!"remoteUnicastAddressRefs" .nil, .field k!"sdServerConfig" .none, .field k!"sdServerTimerConfigRef" .none, .field k!"serviceIdentifier" .none]),
     [(k!"getAllowedServiceConsumerRefs", .get k!"allowedServiceConsumerRefs") /- 894 -/,
      (k!"addAllowedServiceConsumerRef", .add k!"allowedServiceConsumerRefs" true false) /- 900 -/,
      (k!"setAllowedServiceConsumerRefs", .set k!"allowedServiceConsumerRefs" true) /- 908 -/,
      (k!"getAutoAvailable", .get k!"autoAvailable") /- 916 -/,
      (k!"setAutoAvailable", .set k!"autoAvailable" true) /- 922 -/,
      (k!"getEventHandlers", .get k!"eventHandlers") /- 930 -/,
      (k!"createEventHandler", .other) /- 936 -/,
      (k!"getInstanceIdentifier", .get k!"instanceIdentifier") /- 946 -/,
      (k!"setInstanceIdentifier", .set k!"instanceIdentifier" true) /- 952 -/,
      (k!"getLoadBalancingPriority", .get k!"loadBalancingPriority") /- 960 -/,
      (k!"setLoadBalancingPriority", .set k!"loadBalancingPriority" true) /- 966 -/,
      (k!"getLoadBalancingWeight", .get k!"loadBalancingWeight") /- 974 -/,
      (k!"setLoadBalancingWeight", .set k!"loadBalancingWeight" true) /- 980 -/,
      (k!"getLocalUnicastAddressRefs", .get k!"localUnicastAddressRefs") /- 988 -/,
      (k!"setLocalUnicastAddressRefs", .set k!"localUnicastAddressRefs" true) /- 994 -/,
      (k!"addLocalUnicastAddressRef", .add k!"localUnicastAddressRefs" true false) /- 1002 -/,
      (k!"getMinorVersion", .get k!"minorVersion") /- 1010 -/,
      (k!"setMinorVersion", .set k!"minorVersion" true) /- 1016 -/,
      (k!"getPriority", .get k!"priority") /- 1024 -/,
      (k!"setPriority", .set k!"priority" true) /- 1030 -/,
      (k!"getRemoteMulticastSubscriptionAddressRefs", .get k!"remoteMulticastSubscriptionAddressRefs") /- 1038 -/,
      (k!"setRemoteMulticastSubscriptionAddressRefs", .set k!"remoteMulticastSubscriptionAddressRefs" true) /- 1044 -/,
      (k!"addRemoteMulticastSubscriptionAddressRef", .add k!"remoteMulticastSubscriptionAddressRefs" true false) /- 1052 -/,
      (k!"getRemoteUnicastAddressRefs", .get k!"remoteUnicastAddressRefs") /- 1060 -/,
      (k!"setRemoteUnicastAddressRefs", .set k!"remoteUnicastAddressRefs" true) /- 1066 -/,
      (k!"addRemoteUnicastAddressRef", .add k!"remoteUnicastAddressRefs" true false) /- 1074 -/,
      (k!"getSdServerConfig", .get k!"sdServerConfig") /- 1082 -/,
      (k!"setSdServerConfig", .set k!"sdServerConfig" true) /- 1088 -/,
      (k!"getSdServerTimerConfigRef", .get k!"sdServerTimerConfigRef") /- 1096 -/,
      (k!"setSdServerTimerConfigRef", .set k!"sdServerTimerConfigRef" true) /- 1102 -/,
      (k!"getServiceIdentifier", .get k!"serviceIdentifier") /- 1110 -/,
      (k!"setServiceIdentifier", .set k!"serviceIdentifier" true) /- 1116 -/]⟩
    .nil)
   -- M2/AUTOSARTemplates/CommonStructure/ServiceNeeds.py:22
   k!"RoleBasedDataAssignment" ⟨false, some (0, [.sup 0, .field k!"role" .none, .field k!"usedDataElement" .none, .field k!"usedParameterElement" .none, .field k!"usedPimRef" .none]),
     [(k!"getRole", .get k!"role") /- 54 -/,
      (k!"setRole", .set k!"role" false) /- 63 -/,
      (k!"getUsedDataElement", .get k!"usedDataElement") /- 77 -/,
      (k!"setUsedDataElement", .set k!"usedDataElement" false) /- 86 -/,
      (k!"getUsedParameterElement", .get k!"usedParameterElement") /- 100 -/,
      (k!"setUsedParameterElement", .set k!"usedParameterElement" false) /- 109 -/,
      (k!"getUsedPimRef", .get k!"usedPimRef") /- 123 -/,
      (k!"setUsedPimRef", .set k!"usedPimRef" false) /- 132 -/]⟩
   (.node .nil
    -- M2/AUTOSARTemplates/SWComponentTemplate/SwcInternalBehavior/ServiceMapping.py:47
    k!"RoleBasedPortAssignment" ⟨false, some (0, [.sup 0, .field k!"portPrototypeRef" .none, .field k!"role" .none]),
     [(k!"getPortPrototypeRef", .get k!"portPrototypeRef") /- 66 -/,
      (k!"setPortPrototypeRef", .set k!"portPrototypeRef" false) /- 75 -/,
      (k!"getRole", .get k!"role") /- 88 -/,
      (k!"setRole", .set k!"role" false) /- 97 -/]⟩
    .nil)))
 -- M2/AUTOSARTemplates/CommonStructure/ResourceConsumption/StackUsage.py:298
 k!"RoughEstimateStackUsage" ⟨false, some (2, [.sup 2, .field k!"memoryConsumption" .none]),
     [(k!"getMemoryConsumption", .get k!"memoryConsumption") /- 323 -/,
      (k!"setMemoryConsumption", .set k!"memoryConsumption" true) /- 332 -/]⟩
 (.node (.node (.node .nil
    -- M2/AUTOSARTemplates/CommonStructure/MeasurementCalibrationSupport/RptSupport/__init__.py:80
    k!"RptExecutionControlEnum" ⟨false, some (0, [.sup 1]),
     []⟩
    .nil)
   -- M2/MSR/AsamHdo/Constraints/GlobalConstraints.py:147
   k!"ScaleConstrValidityEnum" ⟨false, some (0, [.sup 1]),
     []⟩
   (.node .nil
    -- M2/AUTOSARTemplates/SWComponentTemplate/PortInterface/__init__.py:292
    k!"SenderReceiverInterface" ⟨false, some (2, [.sup 2, .field k!"invalidationPolicies" .nil, .field k!"metaDataItemSets" .nil]),
     [(k!"getInvalidationPolicies", .get k!"invalidationPolicies") /- 311 -/,
      (k!"addInvalidationPolicy", .add k!"invalidationPolicies" false false) /- 314 -/,
      (k!"getMetaDataItemSets", .get k!"metaDataItemSets") /- 318 -/,
      (k!"addMetaDataItemSet", .add k!"metaDataItemSets" false false) /- 321 -/,
      (k!"createDataElement", .other) /- 325 -/,
      (k!"getDataElements", .other) /- 331 -/,
      (k!"getDataElement", .other) /- 334 -/,
      (k!"createInvalidationPolicy", .other) /- 337 -/,
      (k!"getInvalidationPolicys", .other) /- 342 -/]⟩
    .nil))
  -- M2/MSR/AsamHdo/Units.py:164
  k!"SingleLanguageUnitNames" ⟨false, some (0, [.sup 0]),
     []⟩
  (.node (.node .nil
    -- M2/AUTOSARTemplates/CommonStructure/Timing/TimingConstraint/EventTriggeringConstraint.py:75
    k!"SporadicEventTriggering" ⟨false, some (2, [.sup 2, .field k!"min_inter_arrival_time" .none]),
     [(k!"getMinInterArrivalTime", .get k!"min_inter_arrival_time") /- 99 -/,
      (k!"setMinInterArrivalTime", .set k!"min_inter_arrival_time" false) /- 102 -/]⟩
    .nil)
   -- M2/MSR/DataDictionary/DataDefProperties.py:69
   k!"SwCalibrationAccessEnum" ⟨false, some (0, [.sup 1]),
     []⟩
   (.node .nil
    -- M2/AUTOSARTemplates/BswModuleTemplate/BswInterfaces.py:101
    k!"SwServiceImplPolicyEnum" ⟨false, some (0, [.sup 1]),
     []⟩
    .nil))))

def accTable86 : Bst (ClassAcc) :=
 (.node (.node (.node (.node .nil
    -- M2/AUTOSARTemplates/CommonStructure/Timing/TimingClock/TimingClockSyncAccuracy.py:4
    k!"TimingClockSyncAccuracy" ⟨false, some (0, [.sup 0, .field k!"accuracy" .none, .field k!"unit" .none]),
     [(k!"getAccuracy", .get k!"accuracy") /- 25 -/,
      (k!"setAccuracy", .set k!"accuracy" false) /- 34 -/,
      (k!"getUnit", .get k!"unit") /- 47 -/,
      (k!"setUnit", .set k!"unit" false) /- 56 -/]⟩
    .nil)
   -- M2/AUTOSARTemplates/CommonStructure/Timing/TimingCondition/TimingExtensionResource.py:4
   k!"TimingExtensionResource" ⟨false, some (0, [.sup 0, .field k!"resourceName" .none, .field k!"resourceType" .none]),
     [(k!"getResourceName", .get k!"resourceName") /- 25 -/,
      (k!"setResourceName", .set k!"resourceName" false) /- 34 -/,
      (k!"getResourceType", .get k!"resourceType") /- 47 -/,
      (k!"setResourceType", .set k!"resourceType" false) /- 56 -/]⟩
   (.node .nil
    -- M2/AUTOSARTemplates/SystemTemplate/SecureCommunication.py:74
    k!"TlsCryptoServiceMapping" ⟨false, some (2, [.sup 2, .field k!"keyExchangeRef" .none, .field k!"tlsCipherSuites" .nil, .field k!"useClientAuthenticationRequest" .none, .field k!"useSecurityExtensionRecordSizeLimit" .none]),
     [(k!"getKeyExchangeRef", .get k!"keyExchangeRef") /- 100 -/,
      (k!"setKeyExchangeRef", .set k!"keyExchangeRef" true) /- 103 -/,
      (k!"getTlsCipherSuites", .get k!"tlsCipherSuites") /- 108 -/,
      (k!"addTlsCipherSuite", .add k!"tlsCipherSuites" true false) /- 111 -/,
      (k!"getUseClientAuthenticationRequest", .get k!"useClientAuthenticationRequest") /- 116 -/,
      (k!"setUseClientAuthenticationRequest", .set k!"useClientAuthenticationRequest" true) /- 119 -/,
      (k!"getUseSecurityExtensionRecordSizeLimit", .get k!"useSecurityExtensionRecordSizeLimit") /- 124 -/,
      (k!"setUseSecurityExtensionRecordSizeLimit", .set k!"useSecurityExtensionRecordSizeLimit" true) /- 127 -/]⟩
    .nil))
  -- M2/AUTOSARTemplates/SWComponentTemplate/PortInterface/__init__.py:1198
  k!"TriggerInterfaceMapping" ⟨false, some (2, [.sup 2, .field k!"triggerMapping" .nil]),
     [(k!"getTriggerMapping", .get k!"triggerMapping") /- 1209 -/,
      (k!"setTriggerMapping", .set k!"triggerMapping" true) /- 1212 -/]⟩
  (.node (.node .nil
    -- M2/AUTOSARTemplates/SWComponentTemplate/Datatype/Datatypes.py:120
    k!"ApplicationArrayDataType" ⟨false, some (2, [.sup 2, .field k!"dynamicArraySizeProfile" .none, .field k!"element" .none]),
     [(k!"getDynamicArraySizeProfile", .get k!"dynamicArraySizeProfile") /- 144 -/,
      (k!"setDynamicArraySizeProfile", .set k!"dynamicArraySizeProfile" true) /- 153 -/,
      (k!"getApplicationArrayElement", .get k!"element") /- 167 -/,
      (k!"createApplicationArrayElement", .other) /- 176 -/]⟩
    .nil)
   -- M2/AUTOSARTemplates/SWComponentTemplate/Datatype/DataPrototypes.py:308
   k!"ApplicationRecordElement" ⟨false, some (2, [.sup 2, .field k!"isOptional" .none]),
     [(k!"getIsOptional", .get k!"isOptional") /- 324 -/,
      (k!"setIsOptional", .set k!"isOptional" true) /- 333 -/]⟩
   (.node .nil
    -- M2/AUTOSARTemplates/CommonStructure/Timing/TimingConstraint/EventTriggeringConstraint.py:107
    k!"ArbitraryEventTriggering" ⟨false, some (2, [.sup 2]),
     []⟩
    .nil)))
 -- M2/AUTOSARTemplates/GenericStructure/GeneralTemplateClasses/EngineeringObject.py:174
 k!"AutosarEngineeringObject" ⟨false, some (0, [.sup 0]),
     []⟩
 (.node (.node (.node .nil
    -- M2/MSR/AsamHdo/BaseTypes.py:31
    k!"BaseTypeDirectDefinition" ⟨false, some (0, [.sup 0, .field k!"baseTypeEncoding" .none, .field k!"baseTypeSize" .none, .field k!"byteOrder" .none, .field k!"memAlignment" .none, .field k!"nativeDeclaration" .none]),
     [(k!"getBaseTypeEncoding", .get k!"baseTypeEncoding") /- 70 -/,
      (k!"setBaseTypeEncoding", .set k!"baseTypeEncoding" true) /- 76 -/,
      (k!"getBaseTypeSize", .get k!"baseTypeSize") /- 86 -/,
      (k!"setBaseTypeSize", .set k!"baseTypeSize" true) /- 92 -/,
      (k!"getByteOrder", .get k!"byteOrder") /- 102 -/,
      (k!"setByteOrder", .set k!"byteOrder" true) /- 108 -/,
      (k!"getMemAlignment", .get k!"memAlignment") /- 118 -/,
      (k!"setMemAlignment", .set k!"memAlignment" true) /- 124 -/,
      (k!"getNativeDeclaration", .get k!"nativeDeclaration") /- 134 -/,
      (k!"setNativeDeclaration", .set k!"nativeDeclaration" true) /- 140 -/]⟩
    .nil)
   -- M2/AUTOSARTemplates/BswModuleTemplate/BswInterfaces.py:565
   k!"BswEntryRelationshipEnum" ⟨false, none,
     []⟩
   (.node .nil
    -- M2/AUTOSARTemplates/BswModuleTemplate/BswBehavior/__init__.py:1217
    k!"BswModeManagerErrorEvent" ⟨false, some (2, [.sup 2, .field k!"modeGroupRef" .none]),
     [(k!"getModeGroupRef", .get k!"modeGroupRef") /- 1248 -/,
      (k!"setModeGroupRef", .set k!"modeGroupRef" true) /- 1258 -/]⟩
    .nil))
  -- M2/AUTOSARTemplates/BswModuleTemplate/BswBehavior/__init__.py:958
  k!"BswOperationInvokedEvent" ⟨false, some (2, [.sup 2, .field k!"entryRef" .none]),
     [(k!"getEntryRef", .get k!"entryRef") /- 982 -/,
      (k!"setEntryRef", .set k!"entryRef" true) /- 991 -/]⟩
  (.node (.node .nil
    -- M2/AUTOSARTemplates/SystemTemplate/Fibex/FibexCore/CoreTopology.py:540
    k!"CanClusterBusOffRecovery" ⟨false, some (0, [.sup 0, .field k!"borCounterL1ToL2" .none, .field k!"borTimeL1" .none, .field k!"borTimeL2" .none, .field k!"borTimeTxEnsured" .none, .field k!"mainFunctionPeriod" .none]),
     [(k!"getBorCounterL1ToL2", .get k!"borCounterL1ToL2") /- 569 -/,
      (k!"setBorCounterL1ToL2", .set k!"borCounterL1ToL2" true) /- 572 -/,
      (k!"getBorTimeL1", .get k!"borTimeL1") /- 577 -/,
      (k!"setBorTimeL1", .set k!"borTimeL1" true) /- 580 -/,
      (k!"getBorTimeL2", .get k!"borTimeL2") /- 585 -/,
      (k!"setBorTimeL2", .set k!"borTimeL2" true) /- 588 -/,
      (k!"getBorTimeTxEnsured", .get k!"borTimeTxEnsured") /- 593 -/,
      (k!"setBorTimeTxEnsured", .set k!"borTimeTxEnsured" true) /- 596 -/,
      (k!"getMainFunctionPeriod", .get k!"mainFunctionPeriod") /- 601 -/,
      (k!"setMainFunctionPeriod", .set k!"mainFunctionPeriod" true) /- 604 -/]⟩
    .nil)
   -- M2/MSR/AsamHdo/ComputationMethod.py:154
   k!"CompuConstFormulaContent" ⟨false, some (0, [.sup 0, .field k!"vf" .none]),
     [(k!"getVf", .get k!"vf") /- 170 -/,
      (k!"setVf", .set k!"vf" false) /- 173 -/]⟩
   (.node .nil
    -- M2/MSR/AsamHdo/ComputationMethod.py:130
    k!"CompuConstNumericContent" ⟨false, some (0, [.sup 0, .field k!"v" .none]),
     [(k!"getV", .get k!"v") /- 146 -/,
      (k!"setV", .set k!"v" false) /- 149 -/]⟩
    .nil))))

-- M2/AUTOSARTemplates/CommonStructure/Timing/TimingConstraint/SynchronizationTiming.py:19
def accTable87 : Bst (ClassAcc) :=
 .node accTable85 k!"SynchronizationTypeEnum" ⟨false, some (0, [.sup 1]),
     []⟩ accTable86

def accTable88 : Bst (ClassAcc) :=
 (.node (.node (.node (.node (.node .nil
     -- M2/AUTOSARTemplates/CommonStructure/ServiceNeeds.py:2274
     k!"DiagnosticComponentNeeds" ⟨false, some (2, [.sup 2]),
     []⟩
     .nil)
    -- M2/AUTOSARTemplates/CommonStructure/ServiceNeeds.py:1475
    k!"DiagnosticEventInfoNeeds" ⟨false, some (2, [.sup 2, .field k!"dtcKind" .none, .field k!"obdDtcNumber" .none, .field k!"udsDtcNumber" .none]),
     [(k!"getDtcKind", .get k!"dtcKind") /- 1507 -/,
      (k!"setDtcKind", .set k!"dtcKind" true) /- 1516 -/,
      (k!"getObdDtcNumber", .get k!"obdDtcNumber") /- 1531 -/,
      (k!"setObdDtcNumber", .set k!"obdDtcNumber" true) /- 1540 -/,
      (k!"getUdsDtcNumber", .get k!"udsDtcNumber") /- 1555 -/,
      (k!"setUdsDtcNumber", .set k!"udsDtcNumber" true) /- 1564 -/]⟩
    .nil)
   -- M2/AUTOSARTemplates/CommonStructure/ServiceNeeds.py:2422
   k!"DiagnosticIoControlNeeds" ⟨false, some (2, [.sup 2, .field k!"currentValueRef" .none, .field k!"freezeCurrentStateSupported" .none, .field k!"resetToDefaultSupported" .none, .field k!"shortTermAdjustmentSupported" .none]),
     [(k!"getCurrentValueRef", .get k!"currentValueRef") /- 2462 -/,
      (k!"setCurrentValueRef", .set k!"currentValueRef" true) /- 2471 -/,
      (k!"getFreezeCurrentStateSupported", .get k!"freezeCurrentStateSupported") /- 2486 -/,
      (k!"setFreezeCurrentStateSupported", .set k!"freezeCurrentStateSupported" true) /- 2495 -/,
      (k!"getResetToDefaultSupported", .get k!"resetToDefaultSupported") /- 2510 -/,
      (k!"setResetToDefaultSupported", .set k!"resetToDefaultSupported" true) /- 2519 -/,
      (k!"getShortTermAdjustmentSupported", .get k!"shortTermAdjustmentSupported") /- 2534 -/,
      (k!"setShortTermAdjustmentSupported", .set k!"shortTermAdjustmentSupported" true) /- 2543 -/]⟩
   (.node .nil
    -- M2/AUTOSARTemplates/CommonStructure/ServiceNeeds.py:2806
    k!"DoIpPowerModeStatusNeeds" ⟨false, some (2, [.sup 2]),
     []⟩
    .nil))
  -- M2/AUTOSARTemplates/ECUCParameterDefTemplate.py:930
  k!"EcucAbstractReferenceDef" ⟨true, some (2, [.guard k!"EcucAbstractReferenceDef", .sup 2, .field k!"withAuto" .none]),
     [(k!"getWithAuto", .get k!"withAuto") /- 951 -/,
      (k!"setWithAuto", .set k!"withAuto" true) /- 957 -/]⟩
  (.node (.node .nil
    -- M2/AUTOSARTemplates/ECUCParameterDefTemplate.py:1945
    k!"EcucDefinitionCollection" ⟨false, some (2, [.sup 2, .field k!"moduleRefs" .nil]),
     [(k!"addModuleRef", .add k!"moduleRefs" true false) /- 1963 -/,
      (k!"getModuleRefs", .get k!"moduleRefs") /- 1972 -/]⟩
    .nil)
   -- M2/AUTOSARTemplates/ECUCParameterDefTemplate.py:2013
   k!"EcucDestinationUriDefSet" ⟨false, some (2, [.sup 2, .field k!"destinationUriDefs" .nil]),
     [(k!"getDestinationUriDefs", .get k!"destinationUriDefs") /- 2032 -/,
      (k!"createEcucDestinationUriDef", .other) /- 2038 -/,
      (k!"addDestinationUriDef", .add k!"destinationUriDefs" true false) /- 2046 -/]⟩
   (.node .nil
    -- M2/AUTOSARTemplates/ECUCParameterDefTemplate.py:2056
    k!"EcucDestinationUriPolicy" ⟨false, some (0, [.sup 0, .field k!"containers" .nil, .field k!"destinationUriNestingContract" .none, .field k!"parameters" .nil, .field k!"references" .nil]),
     [(k!"getContainers", .get k!"containers") /- 2089 -/,
      (k!"addContainer", .add k!"containers" true false) /- 2095 -/,
      (k!"getDestinationUriNestingContract", .get k!"destinationUriNestingContract") /- 2104 -/,
      (k!"setDestinationUriNestingContract", .set k!"destinationUriNestingContract" true) /- 2110 -/,
      (k!"getParameters", .get k!"parameters") /- 2119 -/,
      (k!"addParameter", .add k!"parameters" true false) /- 2125 -/,
      (k!"getReferences", .get k!"references") /- 2134 -/,
      (k!"addReference", .add k!"references" true false) /- 2140 -/]⟩
    .nil)))
 -- M2/AUTOSARTemplates/ECUCParameterDefTemplate.py:1190
 k!"EcucInstanceReferenceDef" ⟨false, some (2, [.sup 2, .field k!"destinationContext" .none, .field k!"destinationType" .none]),
     [(k!"getDestinationContext", .get k!"destinationContext") /- 1214 -/,
      (k!"setDestinationContext", .set k!"destinationContext" true) /- 1220 -/,
      (k!"getDestinationType", .get k!"destinationType") /- 1229 -/,
      (k!"setDestinationType", .set k!"destinationType" true) /- 1235 -/]⟩
 (.node (.node (.node .nil
    -- M2/AUTOSARTemplates/CommonStructure/Timing/TimingConstraint/ExecutionOrderConstraint.py:73
    k!"ExecutionOrderConstraint" ⟨false, some (2, [.sup 2, .field k!"ordered_elements" .nil]),
     [(k!"createEOCExecutableEntityRef", .other) /- 90 -/,
      (k!"getOrderedElements", .get k!"ordered_elements") /- 106 -/]⟩
    .nil)
   -- M2/AUTOSARTemplates/SystemTemplate/Fibex/Fibex4Flexray/FlexrayTopology.py:1200
   k!"FlexrayFifoConfiguration" ⟨false, some (0, [.sup 0, .field k!"admitWithoutMessageId" .none, .field k!"baseCycle" .none, .field k!"channelRef" .none, .field k!"cycleRepetition" .none, .field k!"fifoDepth" .none, .field k!"fifoRange" .nil, .field k!"msgIdMask" .none, .field k!"msgIdMatch" .none]),
     [(k!"getAdmitWithoutMessageId", .get k!"admitWithoutMessageId") /- 1252 -/,
      (k!"setAdmitWithoutMessageId", .set k!"admitWithoutMessageId" true) /- 1256 -/,
      (k!"getBaseCycle", .get k!"baseCycle") /- 1263 -/,
      (k!"setBaseCycle", .set k!"baseCycle" true) /- 1267 -/,
      (k!"getChannelRef", .get k!"channelRef") /- 1274 -/,
      (k!"setChannelRef", .set k!"channelRef" true) /- 1278 -/,
      (k!"getCycleRepetition", .get k!"cycleRepetition") /- 1285 -/,
      (k!"setCycleRepetition", .set k!"cycleRepetition" true) /- 1289 -/,
      (k!"getFifoDepth", .get k!"fifoDepth") /- 1296 -/,
      (k!"setFifoDepth", .set k!"fifoDepth" true) /- 1300 -/,
      (k!"getFlexrayFifoRanges", .get k!"fifoRange") /- 1307 -/,
      (k!"createFlexrayFifoRange", .other) /- 1311 -/,
      (k!"getMsgIdMask", .get k!"msgIdMask") /- 1317 -/,
      (k!"setMsgIdMask", .set k!"msgIdMask" true) /- 1321 -/,
      (k!"getMsgIdMatch", .get k!"msgIdMatch") /- 1328 -/,
      (k!"setMsgIdMatch", .set k!"msgIdMatch" true) /- 1332 -/]⟩
   (.node .nil
    -- M2/AUTOSARTemplates/SystemTemplate/NetworkManagement.py:75
    k!"FlexrayNmClusterCoupling" ⟨false, some (0, [.sup 0, .field k!"coupledClusterRefs" .nil, .field k!"nmScheduleVariant" .none]),
     [(k!"getCoupledClusterRefs", .get k!"coupledClusterRefs") /- 95 -/,
      (k!"addCoupledClusterRef", .add k!"coupledClusterRefs" false false) /- 98 -/,
      (k!"getNmScheduleVariant", .get k!"nmScheduleVariant") /- 102 -/,
      (k!"setNmScheduleVariant", .set k!"nmScheduleVariant" false) /- 105 -/]⟩
    .nil))
  -- M2/AUTOSARTemplates/GenericStructure/VariantHandling/AttributeValueVariationPoints/__init__.py:227
  k!"FloatValueVariationPoint" ⟨false, some (0, [.sup 0]),
     []⟩
  (.node (.node .nil
    -- M2/AUTOSARTemplates/SystemTemplate/Fibex/FibexCore/CoreTopology.py:825
    k!"IPduSignalProcessingEnum" ⟨false, none,
     []⟩
    .nil)
   -- M2/AUTOSARTemplates/AdaptivePlatform/PlatformModuleDeployment/IntrusionDetectionSystem/IdsPlatformInstantiation.py:11
   k!"IdsPlatformInstantiation" ⟨true, some (2, [.guard k!"IdsPlatformInstantiation", .sup 2, .field k!"networks" .nil, .field k!"timeBases" .none]),
     [(k!"getNetworks", .get k!"networks") /- 43 -/,
      (k!"setNetworks", .set k!"networks" false) /- 46 -/,
      (k!"addNetwork", .add k!"networks" false false) /- 50 -/,
      (k!"getTimeBases", .get k!"timeBases") /- 55 -/,
      (k!"setTimeBases", .set k!"timeBases" false) /- 58 -/]⟩
   (.node .nil
    -- M2/AUTOSARTemplates/GenericStructure/VariantHandling/AttributeValueVariationPoints/__init__.py:174
    k!"LimitValueVariationPoint" ⟨false, some (0, [.sup 0, .field k!"intervalType" .none]),
     [(k!"getIntervalType", .get k!"intervalType") /- 197 -/,
      (k!"setIntervalType", .set k!"intervalType" true) /- 201 -/]⟩
    .nil))))

def accTable89 : Bst (ClassAcc) :=
 (.node (.node (.node (.node .nil
    -- M2/AUTOSARTemplates/CommonStructure/ServiceNeeds.py:3751
    k!"ObdRatioDenominatorNeeds" ⟨false, some (2, [.sup 2, .field k!"denominatorCondition" .none]),
     [(k!"getDenominatorCondition", .get k!"denominatorCondition") /- 3769 -/,
      (k!"setDenominatorCondition", .set k!"denominatorCondition" true) /- 3778 -/]⟩
    .nil)
   -- M2/AUTOSARTemplates/SWComponentTemplate/SwcInternalBehavior/PortAPIOptions.py:12
   k!"PortDefinedArgumentValue" ⟨false, some (0, [.sup 0, .field k!"value" .none, .field k!"valueTypeTRef" .none]),
     [(k!"getValue", .get k!"value") /- 30 -/,
      (k!"setValue", .set k!"value" false) /- 39 -/,
      (k!"getValueTypeTRef", .get k!"valueTypeTRef") /- 52 -/,
      (k!"setValueTypeTRef", .set k!"valueTypeTRef" false) /- 61 -/]⟩
   (.node .nil
    -- M2/AUTOSARTemplates/GenericStructure/GeneralTemplateClasses/PrimitiveTypes.py:682
    k!"PositiveUnlimitedInteger" ⟨false, none,
     []⟩
    .nil))
  -- M2/AUTOSARTemplates/CommonStructure/Constants/__init__.py:222
  k!"RecordValueSpecification" ⟨false, some (0, [.sup 0, .field k!"fields" .nil]),
     [(k!"addField", .add k!"fields" false false) /- 243 -/,
      (k!"getFields", .get k!"fields") /- 252 -/]⟩
  (.node (.node .nil
    -- M2/AUTOSARTemplates/CommonStructure/MeasurementCalibrationSupport/RptSupport/__init__.py:417
    k!"RptExecutableEntityEvent" ⟨false, some (2, [.sup 2, .field k!"executionContextRefs" .nil, .field k!"mcDataAssignments" .nil, .field k!"rptEventId" .none, .field k!"rptExecutableEntityProperties" .none, .field k!"rptImplPolicy" .none, .field k!"rptServicePointPostRefs" .nil, .field k!"rptServicePointPreRefs" .nil]),
     [(k!"addExecutionContextRef", .add k!"executionContextRefs" true false) /- 472 -/,
      (k!"getExecutionContextRefs", .get k!"executionContextRefs") /- 487 -/,
      (k!"addMcDataAssignment", .add k!"mcDataAssignments" true false) /- 496 -/,
      (k!"getMcDataAssignments", .get k!"mcDataAssignments") /- 511 -/,
      (k!"getRptEventId", .get k!"rptEventId") /- 520 -/,
      (k!"setRptEventId", .set k!"rptEventId" true) /- 529 -/,
      (k!"getRptExecutableEntityProperties", .get k!"rptExecutableEntityProperties") /- 544 -/,
      (k!"setRptExecutableEntityProperties", .set k!"rptExecutableEntityProperties" true) /- 553 -/,
      (k!"getRptImplPolicy", .get k!"rptImplPolicy") /- 568 -/,
      (k!"setRptImplPolicy", .set k!"rptImplPolicy" true) /- 577 -/,
      (k!"addRptServicePointPostRef", .add k!"rptServicePointPostRefs" true false) /- 592 -/,
      (k!"getRptServicePointPostRefs", .get k!"rptServicePointPostRefs") /- 607 -/,
      (k!"addRptServicePointPreRef", .add k!"rptServicePointPreRefs" true false) /- 616 -/,
      (k!"getRptServicePointPreRefs", .get k!"rptServicePointPreRefs") /- 631 -/]⟩
    .nil)
   -- M2/AUTOSARTemplates/CommonStructure/MeasurementCalibrationSupport/__init__.py:20
   k!"RteEventInEcuInstanceRef" ⟨false, some (0, [.sup 0, .field k!"baseRef" .none, .field k!"contextRootCompositionRef" .none, .field k!"contextAtomicComponentRef" .none, .field k!"targetRteEventRef" .none]),
     [(k!"getBaseRef", .get k!"baseRef") /- 57 -/,
      (k!"setBaseRef", .set k!"baseRef" true) /- 66 -/,
      (k!"getContextRootCompositionRef", .get k!"contextRootCompositionRef") /- 81 -/,
      (k!"setContextRootCompositionRef", .set k!"contextRootCompositionRef" true) /- 90 -/,
      (k!"getContextAtomicComponentRef", .get k!"contextAtomicComponentRef") /- 105 -/,
      (k!"setContextAtomicComponentRef", .set k!"contextAtomicComponentRef" true) /- 114 -/,
      (k!"getTargetRteEventRef", .get k!"targetRteEventRef") /- 129 -/,
      (k!"setTargetRteEventRef", .set k!"targetRteEventRef" true) /- 138 -/]⟩
   (.node .nil
    -- M2/AUTOSARTemplates/SystemTemplate/Fibex/FibexCore/CoreCommunication.py:471
    k!"SecureCommunicationProps" ⟨false, some (0, [.sup 0, .field k!"authDataFreshnessLength" .none, .field k!"authDataFreshnessStartPosition" .none, .field k!"authenticationBuildAttempts" .none, .field k!"authenticationRetries" .none, .field k!"dataId" .none, .field k!"freshnessValueId" .none, .field k!"messageLinkLength" .none, .field k!"messageLinkPosition" .none, .field k!"secondaryFreshnessValueId" .none, .field k!"securedAreaLength" .none, .field k!"securedAreaOffset" .none]),
     [(k!"getAuthDataFreshnessLength", .get k!"authDataFreshnessLength") /- 543 -/,
      (k!"setAuthDataFreshnessLength", .set k!"authDataFreshnessLength" true) /- 549 -/,
      (k!"getAuthDataFreshnessStartPosition", .get k!"authDataFreshnessStartPosition") /- 558 -/,
      (k!"setAuthDataFreshnessStartPosition", .set k!"authDataFreshnessStartPosition" true) /- 564 -/,
      (k!"getAuthenticationBuildAttempts", .get k!"authenticationBuildAttempts") /- 573 -/,
      (k!"setAuthenticationBuildAttempts", .set k!"authenticationBuildAttempts" true) /- 579 -/,
      (k!"getAuthenticationRetries", .get k!"authenticationRetries") /- 588 -/,
      (k!"setAuthenticationRetries", .set k!"authenticationRetries" true) /- 594 -/,
      (k!"getDataId", .get k!"dataId") /- 603 -/,
      (k!"setDataId", .set k!"dataId" true) /- 609 -/,
      (k!"getFreshnessValueId", .get k!"freshnessValueId") /- 618 -/,
      (k!"setFreshnessValueId", .set k!"freshnessValueId" true) /- 624 -/,
      (k!"getMessageLinkLength", .get k!"messageLinkLength") /- 633 -/,
      (k!"setMessageLinkLength", .set k!"messageLinkLength" true) /- 639 -/,
      (k!"getMessageLinkPosition", .get k!"messageLinkPosition") /- 648 -/,
      (k!"setMessageLinkPosition", .set k!"messageLinkPosition" true) /- 654 -/,
      (k!"getSecondaryFreshnessValueId", .get k!"secondaryFreshnessValueId") /- 663 -/,
      (k!"setSecondaryFreshnessValueId", .set k!"secondaryFreshnessValueId" true) /- 669 -/,
      (k!"getSecuredAreaLength", .get k!"securedAreaLength") /- 678 -/,
      (k!"setSecuredAreaLength", .set k!"securedAreaLength" true) /- 684 -/,
      (k!"getSecuredAreaOffset", .get k!"securedAreaOffset") /- 693 -/,
      (k!"setSecuredAreaOffset", .set k!"securedAreaOffset" true) /- 699 -/]⟩
    .nil)))
 -- M2/AUTOSARTemplates/SWComponentTemplate/ApplicationAttributes/__init__.py:148
 k!"SenderReceiverAnnotation" ⟨false, some (0, [.sup 0, .field k!"computed" .none, .field k!"dataElementRef" .none, .field k!"limitKind" .none, .field k!"processingKind" .none]),
     [(k!"getComputed", .get k!"computed") /- 181 -/,
      (k!"setComputed", .set k!"computed" true) /- 190 -/,
      (k!"getDataElementRef", .get k!"dataElementRef") /- 205 -/,
      (k!"setDataElementRef", .set k!"dataElementRef" true) /- 214 -/,
      (k!"getLimitKind", .get k!"limitKind") /- 229 -/,
      (k!"setLimitKind", .set k!"limitKind" true) /- 238 -/,
      (k!"getProcessingKind", .get k!"processingKind") /- 253 -/,
      (k!"setProcessingKind", .set k!"processingKind" true) /- 262 -/]⟩
 (.node (.node (.node .nil
    -- M2/AUTOSARTemplates/SWComponentTemplate/SoftwareComponentDocumentation.py:18
    k!"SwComponentDocumentation" ⟨false, some (0, [.sup 0, .field k!"chapters" .nil, .field k!"swCalibrationNotes" .none, .field k!"swCarbDoc" .none, .field k!"swDiagnosticsNotes" .none, .field k!"swFeatureDef" .none, .field k!"swFeatureDesc" .none, .field k!"swMaintenanceNotes" .none, .field k!"swTestDesc" .none]),
     [(k!"createChapter", .other) /- 72 -/,
      (k!"getChapters", .get k!"chapters") /- 91 -/,
      (k!"createSwCalibrationNotes", .other) /- 100 -/,
      (k!"getSwCalibrationNotes", .get k!"swCalibrationNotes") /- 116 -/,
      (k!"createSwCarbDoc", .other) /- 125 -/,
      (k!"getSwCarbDoc", .get k!"swCarbDoc") /- 141 -/,
      (k!"createSwDiagnosticsNotes", .other) /- 150 -/,
      (k!"getSwDiagnosticsNotes", .get k!"swDiagnosticsNotes") /- 166 -/,
      (k!"createSwFeatureDef", .other) /- 175 -/,
      (k!"getSwFeatureDef", .get k!"swFeatureDef") /- 191 -/,
      (k!"createSwFeatureDesc", .other) /- 200 -/,
      (k!"getSwFeatureDesc", .get k!"swFeatureDesc") /- 216 -/,
      (k!"createSwMaintenanceNotes", .other) /- 225 -/,
      (k!"getSwMaintenanceNotes", .get k!"swMaintenanceNotes") /- 241 -/,
      (k!"createSwTestDesc", .other) /- 250 -/,
      (k!"getSwTestDesc", .get k!"swTestDesc") /- 266 -/]⟩
    .nil)
   -- M2/AUTOSARTemplates/GenericStructure/VariantHandling/__init__.py:275
   k!"SwSystemconstantValueSet" ⟨false, some (2, [.sup 2, .field k!"swSystemconstantValues" .nil]),
     [(k!"addSwSystemconstantValue", .add k!"swSystemconstantValues" true false) /- 291 -/,
      (k!"getSwSystemconstantValues", .get k!"swSystemconstantValues") /- 302 -/]⟩
   (.node .nil
    -- M2/AUTOSARTemplates/CommonStructure/ServiceNeeds.py:4391
    k!"SyncTimeBaseMgrUserNeeds" ⟨false, some (2, [.sup 2]),
     []⟩
    .nil))
  -- M2/AUTOSARTemplates/SystemTemplate/Transformer/__init__.py:792
  k!"TransformationTechnology" ⟨false, some (2, [.sup 2, .field k!"bufferProperties" .none, .field k!"hasInternalState" .none, .field k!"needsOriginalData" .none, .field k!"protocol" .none, .field k!"transformationDescription" .none, .field k!"transformerClass" .none, .field k!"version" .none]),
     [(k!"setBufferProperties", .set k!"bufferProperties" true) /- 841 -/,
      (k!"getBufferProperties", .get k!"bufferProperties") /- 850 -/,
      (k!"setHasInternalState", .set k!"hasInternalState" true) /- 856 -/,
      (k!"getHasInternalState", .get k!"hasInternalState") /- 865 -/,
      (k!"setNeedsOriginalData", .set k!"needsOriginalData" true) /- 871 -/,
      (k!"getNeedsOriginalData", .get k!"needsOriginalData") /- 880 -/,
      (k!"setProtocol", .set k!"protocol" true) /- 886 -/,
      (k!"getProtocol", .get k!"protocol") /- 895 -/,
      (k!"setTransformationDescription", .set k!"transformationDescription" true) /- 901 -/,
      (k!"getTransformationDescription", .get k!"transformationDescription") /- 910 -/,
      (k!"setTransformerClass", .set k!"transformerClass" true) /- 916 -/,
      (k!"getTransformerClass", .get k!"transformerClass") /- 925 -/,
      (k!"setVersion", .set k!"version" true) /- 931 -/,
      (k!"getVersion", .get k!"version") /- 940 -/]⟩
  (.node (.node .nil
    -- M2/AUTOSARTemplates/SWComponentTemplate/Communication.py:269
    k!"TransmissionComSpecProps" ⟨false, some (0, [.sup 0, .field k!"dataUpdatePeriod" .none, .field k!"minimumSendInterval" .none, .field k!"transmissionMode" .none]),
     [(k!"getDataUpdatePeriod", .get k!"dataUpdatePeriod") /- 298 -/,
      (k!"setDataUpdatePeriod", .set k!"dataUpdatePeriod" true) /- 304 -/,
      (k!"getMinimumSendInterval", .get k!"minimumSendInterval") /- 313 -/,
      (k!"setMinimumSendInterval", .set k!"minimumSendInterval" true) /- 319 -/,
      (k!"getTransmissionMode", .get k!"transmissionMode") /- 328 -/,
      (k!"setTransmissionMode", .set k!"transmissionMode" true) /- 334 -/]⟩
    .nil)
   -- M2/AUTOSARTemplates/SWComponentTemplate/Datatype/Datatypes.py:193
   k!"ApplicationRecordDataType" ⟨false, some (2, [.sup 2, .field k!"record_elements" .nil]),
     [(k!"createApplicationRecordElement", .other) /- 209 -/,
      (k!"getApplicationRecordElements", .get k!"record_elements") /- 216 -/]⟩
   (.node .nil
    -- M2/AUTOSARTemplates/BswModuleTemplate/BswBehavior/__init__.py:385
    k!"BswDistinguishedPartition" ⟨false, some (2, [.sup 2]),
     []⟩
    .nil))))

-- M2/AUTOSARTemplates/SWComponentTemplate/Communication.py:1575
def accTable90 : Bst (ClassAcc) :=
 .node accTable88 k!"NonqueuedReceiverComSpec" ⟨false, some (0, [.sup 0, .field k!"aliveTimeout" .none, .field k!"enableUpdate" .none, .field k!"filter" .none, .field k!"handleDataStatus" .none, .field k!"handleNeverReceived" .none, .field k!"handleTimeoutType" .none, .field k!"initValue" .none, .field k!"timeoutSubstitutionValue" .none]),
     [(k!"getAliveTimeout", .get k!"aliveTimeout") /- 1629 -/,
      (k!"setAliveTimeout", .set k!"aliveTimeout" true) /- 1635 -/,
      (k!"getEnableUpdate", .get k!"enableUpdate") /- 1644 -/,
      (k!"setEnableUpdate", .set k!"enableUpdate" true) /- 1650 -/,
      (k!"getFilter", .get k!"filter") /- 1659 -/,
      (k!"setFilter", .set k!"filter" true) /- 1665 -/,
      (k!"getHandleDataStatus", .get k!"handleDataStatus") /- 1674 -/,
      (k!"setHandleDataStatus", .set k!"handleDataStatus" true) /- 1680 -/,
      (k!"getHandleNeverReceived", .get k!"handleNeverReceived") /- 1689 -/,
      (k!"setHandleNeverReceived", .set k!"handleNeverReceived" true) /- 1695 -/,
      (k!"getHandleTimeoutType", .get k!"handleTimeoutType") /- 1704 -/,
      (k!"setHandleTimeoutType", .set k!"handleTimeoutType" true) /- 1710 -/,
      (k!"getInitValue", .get k!"initValue") /- 1719 -/,
      (k!"setInitValue", .set k!"initValue" true) /- 1725 -/,
      (k!"getTimeoutSubstitutionValue", .get k!"timeoutSubstitutionValue") /- 1734 -/,
      (k!"setTimeoutSubstitutionValue", .set k!"timeoutSubstitutionValue" true) /- 1740 -/]⟩ accTable89

-- M2/AUTOSARTemplates/CommonStructure/ServiceNeeds.py:2159
def accTable91 : Bst (ClassAcc) :=
 .node accTable87 k!"CryptoKeyManagementNeeds" ⟨false, some (2, [.sup 2]),
     []⟩ accTable90

-- M2/AUTOSARTemplates/SWComponentTemplate/ApplicationAttributes/__init__.py:508
def accTable92 : Bst (ClassAcc) :=
 .node accTable84 k!"ParameterPortAnnotation" ⟨false, some (0, [.sup 0, .field k!"parameterRef" .none]),
     [(k!"getParameterRef", .get k!"parameterRef") /- 526 -/,
      (k!"setParameterRef", .set k!"parameterRef" true) /- 535 -/]⟩ accTable91

-- M2/AUTOSARTemplates/SystemTemplate/Fibex/Fibex4Flexray/FlexrayCommunication.py:60
def accTable93 : Bst (ClassAcc) :=
 .node accTable77 k!"FlexrayFrameTriggering" ⟨false, some (2, [.sup 2, .field k!"absolutelyScheduledTimings" .nil, .field k!"allowDynamicLSduLength" .none, .field k!"messageId" .none, .field k!"payloadPreambleIndicator" .none]),
     [(k!"getAbsolutelyScheduledTimings", .get k!"absolutelyScheduledTimings") /- 86 -/,
      (k!"addAbsolutelyScheduledTiming", .add k!"absolutelyScheduledTimings" true false) /- 89 -/,
      (k!"getAllowDynamicLSduLength", .get k!"allowDynamicLSduLength") /- 94 -/,
      (k!"setAllowDynamicLSduLength", .set k!"allowDynamicLSduLength" true) /- 97 -/,
      (k!"getMessageId", .get k!"messageId") /- 102 -/,
      (k!"setMessageId", .set k!"messageId" true) /- 105 -/,
      (k!"getPayloadPreambleIndicator", .get k!"payloadPreambleIndicator") /- 110 -/,
      (k!"setPayloadPreambleIndicator", .set k!"payloadPreambleIndicator" true) /- 113 -/]⟩ accTable92

def accTable94 : Bst (ClassAcc) :=
 (.node (.node (.node (.node (.node .nil
     -- M2/AUTOSARTemplates/SystemTemplate/Fibex/Fibex4Can/CanTopology.py:954
     k!"CanCommunicationConnector" ⟨false, some (2, [.sup 2, .field k!"pncWakeupCanId" .none, .field k!"pncWakeupCanIdExtended" .none, .field k!"pncWakeupCanIdMask" .none, .field k!"pncWakeupDataMask" .none, .field k!"pncWakeupDlc" .none]),
     [(k!"getPncWakeupCanId", .get k!"pncWakeupCanId") /- 983 -/,
      (k!"setPncWakeupCanId", .set k!"pncWakeupCanId" true) /- 986 -/,
      (k!"getPncWakeupCanIdExtended", .get k!"pncWakeupCanIdExtended") /- 991 -/,
      (k!"setPncWakeupCanIdExtended", .set k!"pncWakeupCanIdExtended" true) /- 994 -/,
      (k!"getPncWakeupCanIdMask", .get k!"pncWakeupCanIdMask") /- 999 -/,
      (k!"setPncWakeupCanIdMask", .set k!"pncWakeupCanIdMask" true) /- 1002 -/,
      (k!"getPncWakeupDataMask", .get k!"pncWakeupDataMask") /- 1007 -/,
      (k!"setPncWakeupDataMask", .set k!"pncWakeupDataMask" true) /- 1010 -/,
      (k!"getPncWakeupDlc", .get k!"pncWakeupDlc") /- 1015 -/,
      (k!"setPncWakeupDlc", .set k!"pncWakeupDlc" true) /- 1018 -/]⟩
     .nil)
    -- M2/MSR/AsamHdo/ComputationMethod.py:277
    k!"CompuNominatorDenominator" ⟨false, some (0, [.sup 0, .field k!"v" .nil]),
     [(k!"add_v", .add k!"v" false false) /- 294 -/,
      (k!"get_vs", .get k!"v") /- 297 -/]⟩
    .nil)
   -- M2/MSR/AsamHdo/ComputationMethod.py:253
   k!"CompuScaleRationalFormula" ⟨false, some (0, [.sup 0, .field k!"compuRationalCoeffs" .none]),
     [(k!"getCompuRationalCoeffs", .get k!"compuRationalCoeffs") /- 269 -/,
      (k!"setCompuRationalCoeffs", .set k!"compuRationalCoeffs" false) /- 272 -/]⟩
   (.node .nil
    -- M2/AUTOSARTemplates/CommonStructure/ServiceNeeds.py:878
    k!"DiagnosticRoutineTypeEnum" ⟨false, some (0, [.sup 1]),
     []⟩
    .nil))
  -- M2/AUTOSARTemplates/CommonStructure/ServiceNeeds.py:1027
  k!"DiagnosticValueAccessEnum" ⟨false, some (0, [.sup 1]),
     []⟩
  (.node (.node .nil
    -- M2/AUTOSARTemplates/ECUCParameterDefTemplate.py:1421
    k!"EcucEnumerationLiteralDef" ⟨false, some (2, [.sup 2, .field k!"ecucCond" .none, .field k!"origin" .none]),
     [(k!"getEcucCond", .get k!"ecucCond") /- 1440 -/,
      (k!"setEcucCond", .set k!"ecucCond" true) /- 1446 -/,
      (k!"getOrigin", .get k!"origin") /- 1455 -/,
      (k!"setOrigin", .set k!"origin" true) /- 1461 -/]⟩
    .nil)
   -- M2/AUTOSARTemplates/ECUCParameterDefTemplate.py:1596
   k!"EcucParamConfContainerDef" ⟨false, some (2, [.sup 2, .field k!"parameters" .nil, .field k!"references" .nil, .field k!"subContainers" .nil]),
     [(k!"getParameters", .get k!"parameters") /- 1638 -/,
      (k!"createEcucBooleanParamDef", .other) /- 1647 -/,
      (k!"createEcucStringParamDef", .other) /- 1663 -/,
      (k!"createEcucIntegerParamDef", .other) /- 1680 -/,
      (k!"createEcucFloatParamDef", .other) /- 1697 -/,
      (k!"createEcucEnumerationParamDef", .other) /- 1714 -/,
      (k!"createEcucFunctionNameDef", .other) /- 1731 -/,
      (k!"createEcucMultilineStringParamDef", .other) /- 1747 -/,
      (k!"getReferences", .get k!"references") /- 1763 -/,
      (k!"createEcucSymbolicNameReferenceDef", .other) /- 1772 -/,
      (k!"createEcucReferenceDef", .other) /- 1788 -/,
      (k!"createEcucChoiceReferenceDef", .other) /- 1804 -/,
      (k!"createEcucInstanceReferenceDef", .other) /- 1820 -/,
      (k!"getSubContainers", .get k!"subContainers") /- 1836 -/,
      (k!"createEcucChoiceContainerDef", .other) /- 1845 -/,
      (k!"createEcucParamConfContainerDef", .other) /- 1861 -/]⟩
   (.node .nil
    -- M2/AUTOSARTemplates/CommonStructure/ServiceNeeds.py:3130
    k!"EventAcceptanceStatusEnum" ⟨false, some (0, [.sup 1]),
     []⟩
    .nil)))
 -- M2/AUTOSARTemplates/CommonStructure/Timing/TimingConstraint/EventTriggeringConstraint.py:26
 k!"EventTriggeringConstraint" ⟨true, some (2, [.guard k!"EventTriggeringConstraint", .sup 2]),
     []⟩
 (.node (.node (.node .nil
    -- M2/AUTOSARTemplates/CommonStructure/InternalBehavior.py:556
    k!"ExclusiveAreaNestingOrder" ⟨false, some (2, [.sup 2, .field k!"exclusiveAreaRefs" .nil]),
     [(k!"getExclusiveAreaRefs", .get k!"exclusiveAreaRefs") /- 575 -/,
      (k!"addExclusiveAreaRef", .add k!"exclusiveAreaRefs" true false) /- 584 -/]⟩
    .nil)
   -- M2/AUTOSARTemplates/SWComponentTemplate/SwcInternalBehavior/InstantiationDataDefProps.py:9
   k!"InstantiationDataDefProps" ⟨false, some (0, [.sup 0, .field k!"parameterInstance" .none, .field k!"swDataDefProps" .none, .field k!"variableInstance" .none]),
     [(k!"getParameterInstance", .get k!"parameterInstance") /- 55 -/,
      (k!"setParameterInstance", .set k!"parameterInstance" true) /- 59 -/,
      (k!"getSwDataDefProps", .get k!"swDataDefProps") /- 69 -/,
      (k!"setSwDataDefProps", .set k!"swDataDefProps" true) /- 73 -/,
      (k!"getVariableInstance", .get k!"variableInstance") /- 83 -/,
      (k!"setVariableInstance", .set k!"variableInstance" true) /- 87 -/]⟩
   (.node .nil
    -- M2/AUTOSARTemplates/SystemTemplate/__init__.py:470
    k!"J1939SharedAddressCluster" ⟨false, some (2, [.sup 2, .field k!"participatingJ1939ClusterRefs" .nil]),
     [(k!"getParticipatingJ1939ClusterRefs", .get k!"participatingJ1939ClusterRefs") /- 487 -/,
      (k!"addParticipatingJ1939ClusterRef", .add k!"participatingJ1939ClusterRefs" true false) /- 490 -/]⟩
    .nil))
  -- M2/AUTOSARTemplates/CommonStructure/Timing/TimingConstraint/LatencyTimingConstraint.py:19
  k!"LatencyConstraintTypeEnum" ⟨false, some (0, [.sup 1]),
     []⟩
  (.node (.node .nil
    -- M2/AUTOSARTemplates/SystemTemplate/Fibex/Fibex4Lin/LinTopology.py:83
    k!"LinCommunicationConnector" ⟨false, some (2, [.sup 2, .field k!"initialNad" .none, .field k!"linConfigurableFrames" .nil, .field k!"linOrderedConfigurableFrames" .nil, .field k!"scheduleChangeNextTimeBase" .none]),
     [(k!"getInitialNad", .get k!"initialNad") /- 109 -/,
      (k!"setInitialNad", .set k!"initialNad" true) /- 112 -/,
      (k!"getLinConfigurableFrames", .get k!"linConfigurableFrames") /- 117 -/,
      (k!"addLinConfigurableFrame", .add k!"linConfigurableFrames" true false) /- 120 -/,
      (k!"getLinOrderedConfigurableFrames", .get k!"linOrderedConfigurableFrames") /- 125 -/,
      (k!"addLinOrderedConfigurableFrame", .add k!"linOrderedConfigurableFrames" true false) /- 128 -/,
      (k!"getScheduleChangeNextTimeBase", .get k!"scheduleChangeNextTimeBase") /- 133 -/,
      (k!"setScheduleChangeNextTimeBase", .set k!"scheduleChangeNextTimeBase" true) /- 136 -/]⟩
    .nil)
   -- M2/AUTOSARTemplates/SWComponentTemplate/PortInterface/__init__.py:1273
   k!"ModeDeclarationMappingSet" ⟨false, some (2, [.sup 2, .field k!"modeDeclarationMappings" .nil]),
     [(k!"getModeDeclarationMappings", .get k!"modeDeclarationMappings") /- 1284 -/,
      (k!"createModeDeclarationMapping", .other) /- 1287 -/]⟩
   (.node .nil
    -- M2/AUTOSARTemplates/SWComponentTemplate/Communication.py:680
    k!"ModeSwitchReceiverComSpec" ⟨false, some (0, [.sup 0, .field k!"enhancedModeApi" .none, .field k!"modeGroupRef" .none, .field k!"supportsAsynchronousModeSwitch" .none]),
     [(k!"getEnhancedModeApi", .get k!"enhancedModeApi") /- 701 -/,
      (k!"setEnhancedModeApi", .set k!"enhancedModeApi" false) /- 710 -/,
      (k!"getModeGroupRef", .get k!"modeGroupRef") /- 724 -/,
      (k!"setModeGroupRef", .set k!"modeGroupRef" false) /- 733 -/,
      (k!"getSupportsAsynchronousModeSwitch", .get k!"supportsAsynchronousModeSwitch") /- 747 -/,
      (k!"setSupportsAsynchronousModeSwitch", .set k!"supportsAsynchronousModeSwitch" false) /- 756 -/]⟩
    .nil))))

def accTable95 : Bst (ClassAcc) :=
 (.node (.node (.node (.node (.node .nil
     -- M2/AUTOSARTemplates/GenericStructure/VariantHandling/__init__.py:18
     k!"PostBuildVariantCriterion" ⟨false, some (2, [.sup 2, .field k!"compuMethodRef" .none]),
     [(k!"getCompuMethodRef", .get k!"compuMethodRef") /- 47 -/,
      (k!"setCompuMethodRef", .set k!"compuMethodRef" true) /- 54 -/]⟩
     .nil)
    -- M2/AUTOSARTemplates/CommonStructure/ServiceNeeds.py:171
    k!"RamBlockStatusControlEnum" ⟨false, some (0, [.sup 1]),
     []⟩
    .nil)
   -- M2/AUTOSARTemplates/CommonStructure/MeasurementCalibrationSupport/__init__.py:906
   k!"RoleBasedMcDataAssignment" ⟨false, some (0, [.sup 0, .field k!"executionContextRefs" .nil, .field k!"mcDataInstanceRefs" .nil, .field k!"role" .none]),
     [(k!"getExecutionContextRefs", .get k!"executionContextRefs") /- 937 -/,
      (k!"addExecutionContextRef", .add k!"executionContextRefs" true false) /- 946 -/,
      (k!"getMcDataInstanceRefs", .get k!"mcDataInstanceRefs") /- 961 -/,
      (k!"addMcDataInstanceRef", .add k!"mcDataInstanceRefs" true false) /- 970 -/,
      (k!"getRole", .get k!"role") /- 985 -/,
      (k!"setRole", .set k!"role" true) /- 994 -/]⟩
   (.node .nil
    -- M2/AUTOSARTemplates/SystemTemplate/SecureCommunication.py:26
    k!"SecOcCryptoServiceMapping" ⟨false, some (2, [.sup 2, .field k!"authenticationRef" .none, .field k!"cryptoServiceKeyRef" .none, .field k!"cryptoServiceQueueRef" .none]),
     [(k!"getAuthenticationRef", .get k!"authenticationRef") /- 49 -/,
      (k!"setAuthenticationRef", .set k!"authenticationRef" true) /- 52 -/,
      (k!"getCryptoServiceKeyRef", .get k!"cryptoServiceKeyRef") /- 57 -/,
      (k!"setCryptoServiceKeyRef", .set k!"cryptoServiceKeyRef" true) /- 60 -/,
      (k!"getCryptoServiceQueueRef", .get k!"cryptoServiceQueueRef") /- 65 -/,
      (k!"setCryptoServiceQueueRef", .set k!"cryptoServiceQueueRef" true) /- 68 -/]⟩
    .nil))
  -- M2/AUTOSARTemplates/SystemTemplate/DataMapping.py:330
  k!"SenderRecArrayTypeMapping" ⟨false, some (0, [.sup 0, .field k!"arrayElementMappings" .nil, .field k!"senderToSignal" .none, .field k!"signalToReceiverTextTableMapping" .none]),
     [(k!"getArrayElementMappings", .get k!"arrayElementMappings") /- 353 -/,
      (k!"setArrayElementMappings", .set k!"arrayElementMappings" true) /- 356 -/,
      (k!"getSenderToSignal", .get k!"senderToSignal") /- 361 -/,
      (k!"setSenderToSignal", .set k!"senderToSignal" true) /- 364 -/,
      (k!"getSignalToReceiverTextTableMapping", .get k!"signalToReceiverTextTableMapping") /- 369 -/,
      (k!"setSignalToReceiverTextTableMapping", .set k!"signalToReceiverTextTableMapping" true) /- 372 -/]⟩
  (.node (.node .nil
    -- M2/AUTOSARTemplates/CommonStructure/SwcBswMapping.py:354
    k!"SwcBswSynchronizedTrigger" ⟨false, some (0, [.sup 0, .field k!"bswTriggerRef" .none, .field k!"swcTriggerIRef" .none]),
     [(k!"getBswTriggerRef", .get k!"bswTriggerRef") /- 380 -/,
      (k!"setBswTriggerRef", .set k!"bswTriggerRef" true) /- 391 -/,
      (k!"getSwcTriggerIRef", .get k!"swcTriggerIRef") /- 408 -/,
      (k!"setSwcTriggerIRef", .set k!"swcTriggerIRef" true) /- 420 -/]⟩
    .nil)
   -- M2/AUTOSARTemplates/SystemTemplate/Transformer/__init__.py:178
   k!"TransformationDescription" ⟨true, some (0, [.guard k!"TransformationDescription", .sup 0]),
     []⟩
   (.node .nil
    -- M2/AUTOSARTemplates/SystemTemplate/Fibex/FibexCore/Timing.py:32
    k!"TransmissionModeCondition" ⟨false, some (0, [.sup 0, .field k!"dataFilter" .none, .field k!"iSignalInIPduRef" .none]),
     [(k!"getDataFilter", .get k!"dataFilter") /- 52 -/,
      (k!"setDataFilter", .set k!"dataFilter" false) /- 55 -/,
      (k!"getISignalInIPduRef", .get k!"iSignalInIPduRef") /- 59 -/,
      (k!"setISignalInIPduRef", .set k!"iSignalInIPduRef" false) /- 62 -/]⟩
    .nil)))
 -- M2/AUTOSARTemplates/SystemTemplate/Fibex/FibexCore/CoreTopology.py:199
 k!"AbstractCanPhysicalChannel" ⟨true, some (2, [.guard k!"AbstractCanPhysicalChannel", .sup 2]),
     []⟩
 (.node (.node (.node .nil
    -- M2/AUTOSARTemplates/SWComponentTemplate/Components/__init__.py:633
    k!"ApplicationSwComponentType" ⟨false, some (2, [.sup 2]),
     []⟩
    .nil)
   -- M2/AUTOSARTemplates/GenericStructure/VariantHandling/AttributeValueVariationPoints/__init__.py:208
   k!"BooleanValueVariationPoint" ⟨false, some (0, [.sup 0]),
     []⟩
   (.node .nil
    -- M2/AUTOSARTemplates/BswModuleTemplate/BswBehavior/__init__.py:2017
    k!"BswInternalTriggeringPoint" ⟨false, some (2, [.sup 2, .field k!"swImplPolicy" .none]),
     [(k!"getSwImplPolicy", .get k!"swImplPolicy") /- 2041 -/,
      (k!"setSwImplPolicy", .set k!"swImplPolicy" true) /- 2050 -/]⟩
    .nil))
  -- M2/AUTOSARTemplates/BswModuleTemplate/BswInterfaces.py:460
  k!"BswModuleClientServerEntry" ⟨false, some (2, [.sup 2, .field k!"encapsulatedEntryRef" .none, .field k!"isReentrant" .none, .field k!"isSynchronous" .none]),
     [(k!"getEncapsulatedEntryRef", .get k!"encapsulatedEntryRef") /- 492 -/,
      (k!"setEncapsulatedEntryRef", .set k!"encapsulatedEntryRef" true) /- 501 -/,
      (k!"getIsReentrant", .get k!"isReentrant") /- 516 -/,
      (k!"setIsReentrant", .set k!"isReentrant" true) /- 525 -/,
      (k!"getIsSynchronous", .get k!"isSynchronous") /- 540 -/,
      (k!"setIsSynchronous", .set k!"isSynchronous" true) /- 549 -/]⟩
  (.node (.node .nil
    -- M2/AUTOSARTemplates/SystemTemplate/Fibex/Fibex4Can/CanTopology.py:924
    k!"CanCommunicationController" ⟨false, some (2, [.sup 2]),
     []⟩
    .nil)
   -- M2/AUTOSARTemplates/SystemTemplate/Fibex/FibexCore/CoreTopology.py:767
   k!"CommunicationDirectionType" ⟨false, some (0, [.sup 1]),
     []⟩
   (.node .nil
    -- M2/AUTOSARTemplates/SWComponentTemplate/Composition/__init__.py:335
    k!"CompositionSwComponentType" ⟨false, some (2, [.sup 2, .field k!"components" .nil, .field k!"connectors" .nil, .field k!"constantValueMappingRefs" .nil, .field k!"dataTypeMappingRefs" .nil, .field k!"instantiationRTEEventProps" .nil, .field k!"physicalDimensionMappingRef" .none]),
     [(k!"createSwComponentPrototype", .other) /- 386 -/,
      (k!"getComponents", .get k!"components") /- 403 -/,
      (k!"createAssemblySwConnector", .other) /- 412 -/,
      (k!"createDelegationSwConnector", .other) /- 429 -/,
      (k!"createPassThroughSwConnector", .other) /- 446 -/,
      (k!"getSwConnectors", .get k!"connectors") /- 463 -/,
      (k!"getAssemblySwConnectors", .other) /- 472 -/,
      (k!"getDelegationSwConnectors", .other) /- 481 -/,
      (k!"getPassThroughSwConnectors", .other) /- 490 -/,
      (k!"removeAllAssemblySwConnector", .other) /- 499 -/,
      (k!"removeAllDelegationSwConnector", .other) /- 507 -/,
      (k!"removeAllPassThroughSwConnector", .other) /- 515 -/,
      (k!"addConstantValueMappingRef", .add k!"constantValueMappingRefs" true false) /- 523 -/,
      (k!"getConstantValueMappingRefs", .get k!"constantValueMappingRefs") /- 538 -/,
      (k!"addDataTypeMappingRef", .add k!"dataTypeMappingRefs" true false) /- 547 -/,
      (k!"getDataTypeMappingRefs", .get k!"dataTypeMappingRefs") /- 562 -/,
      (k!"addInstantiationRTEEventProps", .add k!"instantiationRTEEventProps" true false) /- 571 -/,
      (k!"getInstantiationRTEEventProps", .get k!"instantiationRTEEventProps") /- 586 -/,
      (k!"setPhysicalDimensionMappingRef", .set k!"physicalDimensionMappingRef" true) /- 595 -/,
      (k!"getPhysicalDimensionMappingRef", .get k!"physicalDimensionMappingRef") /- 610 -/,
      (k!"removeElement", .other) /- 619 -/]⟩
    .nil))))

-- M2/AUTOSARTemplates/GenericStructure/VariantHandling/__init__.py:312
def accTable96 : Bst (ClassAcc) :=
 .node accTable94 k!"PostBuildVariantCondition" ⟨false, some (0, [.sup 0, .field k!"matchingCriterionRef" .none, .field k!"value" .none]),
     [(k!"getMatchingCriterionRef", .get k!"matchingCriterionRef") /- 351 -/,
      (k!"setMatchingCriterionRef", .set k!"matchingCriterionRef" true) /- 358 -/,
      (k!"getValue", .get k!"value") /- 368 -/,
      (k!"setValue", .set k!"value" true) /- 374 -/]⟩ accTable95

def accTable97 : Bst (ClassAcc) :=
 (.node (.node (.node (.node (.node .nil
     -- M2/AUTOSARTemplates/SystemTemplate/Transformer/__init__.py:16
     k!"DataTransformationKindEnum" ⟨false, some (0, [.sup 1]),
     []⟩
     .nil)
    -- M2/AUTOSARTemplates/CommonStructure/ServiceNeeds.py:1241
    k!"DiagEventDebounceAlgorithm" ⟨true, some (2, [.guard k!"DiagEventDebounceAlgorithm", .sup 2]),
     []⟩
    .nil)
   -- M2/AUTOSARTemplates/CommonStructure/ServiceNeeds.py:1405
   k!"DiagEventDebounceTimeBased" ⟨false, some (2, [.sup 2, .field k!"timeBasedFdcThresholdStorageValue" .none, .field k!"timeFailedThreshold" .none, .field k!"timePassedThreshold" .none]),
     [(k!"getTimeBasedFdcThresholdStorageValue", .get k!"timeBasedFdcThresholdStorageValue") /- 1437 -/,
      (k!"setTimeBasedFdcThresholdStorageValue", .set k!"timeBasedFdcThresholdStorageValue" false) /- 1440 -/,
      (k!"getTimeFailedThreshold", .get k!"timeFailedThreshold") /- 1444 -/,
      (k!"setTimeFailedThreshold", .set k!"timeFailedThreshold" false) /- 1447 -/,
      (k!"getTimePassedThreshold", .get k!"timePassedThreshold") /- 1451 -/,
      (k!"setTimePassedThreshold", .set k!"timePassedThreshold" false) /- 1454 -/]⟩
   (.node .nil
    -- M2/AUTOSARTemplates/ECUCDescriptionTemplate.py:205
    k!"EcucAbstractReferenceValue" ⟨true, some (0, [.guard k!"EcucAbstractReferenceValue", .sup 0, .field k!"annotations" .nil, .field k!"definitionRef" .none, .field k!"isAutoValue" .none]),
     [(k!"getAnnotations", .get k!"annotations") /- 230 -/,
      (k!"addAnnotation", .add k!"annotations" false false) /- 233 -/,
      (k!"getDefinitionRef", .get k!"definitionRef") /- 237 -/,
      (k!"setDefinitionRef", .set k!"definitionRef" false) /- 240 -/,
      (k!"getIsAutoValue", .get k!"isAutoValue") /- 244 -/,
      (k!"setIsAutoValue", .set k!"isAutoValue" false) /- 247 -/]⟩
    .nil))
  -- M2/AUTOSARTemplates/ECUCParameterDefTemplate.py:1245
  k!"EcucAbstractStringParamDef" ⟨true, some (2, [.guard k!"EcucAbstractStringParamDef", .sup 2, .field k!"defaultValue" .none, .field k!"maxLength" .none, .field k!"minLength" .none, .field k!"regularExpression" .none]),
     [(k!"getDefaultValue", .get k!"defaultValue") /- 1281 -/,
      (k!"setDefaultValue", .set k!"defaultValue" true) /- 1287 -/,
      (k!"getMaxLength", .get k!"maxLength") /- 1297 -/,
      (k!"setMaxLength", .set k!"maxLength" true) /- 1303 -/,
      (k!"getMinLength", .get k!"minLength") /- 1313 -/,
      (k!"setMinLength", .set k!"minLength" true) /- 1319 -/,
      (k!"getRegularExpression", .get k!"regularExpression") /- 1329 -/,
      (k!"setRegularExpression", .set k!"regularExpression" true) /- 1335 -/]⟩
  (.node (.node .nil
    -- M2/AUTOSARTemplates/ECUCParameterDefTemplate.py:13
    k!"EcucConditionSpecification" ⟨false, some (0, [.sup 0, .field k!"conditionFormula" .none, .field k!"ecucQueries" .nil, .field k!"informalFormula" .none]),
     [(k!"getConditionFormula", .get k!"conditionFormula") /- 42 -/,
      (k!"setConditionFormula", .set k!"conditionFormula" true) /- 48 -/,
      (k!"getEcucQueries", .get k!"ecucQueries") /- 57 -/,
      (k!"createEcucQuery", .other) /- 63 -/,
      (k!"getEcucQuery", .other) /- 76 -/,
      (k!"getInformalFormula", .get k!"informalFormula") /- 85 -/,
      (k!"setInformalFormula", .set k!"informalFormula" true) /- 91 -/]⟩
    .nil)
   -- M2/AUTOSARTemplates/ECUCParameterDefTemplate.py:365
   k!"EcucConfigurationClassEnum" ⟨false, some (0, [.sup 1]),
     []⟩
   (.node .nil
    -- M2/AUTOSARTemplates/ECUCDescriptionTemplate.py:252
    k!"EcucInstanceReferenceValue" ⟨false, some (0, [.sup 0, .field k!"valueIRef" .none]),
     [(k!"getValueIRef", .get k!"valueRef") /- 268 -/,
      (k!"setValueIRef", .set k!"valueRef" false) /- 271 -/]⟩
    .nil)))
 -- M2/AUTOSARTemplates/SWComponentTemplate/Communication.py:1830
 k!"HandleOutOfRangeStatusEnum" ⟨false, some (0, [.sup 1]),
     []⟩
 (.node (.node (.node .nil
    -- M2/AUTOSARTemplates/CommonStructure/ServiceNeeds.py:3282
    k!"IdsMgrCustomTimestampNeeds" ⟨false, some (2, [.sup 2]),
     []⟩
    .nil)
   -- M2/AUTOSARTemplates/SWComponentTemplate/Composition/__init__.py:215
   k!"InstantiationRTEEventProps" ⟨true, some (0, [.guard k!"InstantiationRTEEventProps", .sup 0, .field k!"refinedEventIRef" .none, .field k!"shortLabel" .none]),
     [(k!"getRefinedEventIRef", .get k!"refinedEventIRef") /- 242 -/,
      (k!"setRefinedEventIRef", .set k!"refinedEventIRef" true) /- 251 -/,
      (k!"getShortLabel", .get k!"shortLabel") /- 266 -/,
      (k!"setShortLabel", .set k!"shortLabel" true) /- 275 -/]⟩
   (.node .nil
    -- M2/AUTOSARTemplates/GenericStructure/VariantHandling/AttributeValueVariationPoints/__init__.py:246
    k!"IntegerValueVariationPoint" ⟨false, some (0, [.sup 0]),
     []⟩
    .nil))
  -- M2/AUTOSARTemplates/SystemTemplate/Fibex/Fibex4Lin/LinTopology.py:7
  k!"LinCommunicationController" ⟨true, some (2, [.guard k!"LinCommunicationController", .sup 2, .field k!"protocolVersion" .none]),
     [(k!"getProtocolVersion", .get k!"protocolVersion") /- 26 -/,
      (k!"setProtocolVersion", .set k!"protocolVersion" true) /- 29 -/]⟩
  (.node (.node .nil
    -- M2/AUTOSARTemplates/CommonStructure/MeasurementCalibrationSupport/__init__.py:470
    k!"McSwEmulationMethodSupport" ⟨false, some (0, [.sup 0, .field k!"baseReferenceRef" .none, .field k!"category" .none, .field k!"elementGroups" .nil, .field k!"referenceTableRef" .none, .field k!"shortLabel" .none]),
     [(k!"getBaseReferenceRef", .get k!"baseReferenceRef") /- 511 -/,
      (k!"setBaseReferenceRef", .set k!"baseReferenceRef" true) /- 520 -/,
      (k!"getCategory", .get k!"category") /- 535 -/,
      (k!"setCategory", .set k!"category" true) /- 544 -/,
      (k!"addElementGroup", .add k!"elementGroups" true false) /- 559 -/,
      (k!"getElementGroups", .get k!"elementGroups") /- 574 -/,
      (k!"getReferenceTableRef", .get k!"referenceTableRef") /- 583 -/,
      (k!"setReferenceTableRef", .set k!"referenceTableRef" true) /- 592 -/,
      (k!"getShortLabel", .get k!"shortLabel") /- 607 -/,
      (k!"setShortLabel", .set k!"shortLabel" true) /- 616 -/]⟩
    .nil)
   -- M2/AUTOSARTemplates/CommonStructure/ServiceNeeds.py:3727
   k!"ObdRatioConnectionKindEnum" ⟨false, some (0, [.sup 1]),
     []⟩
   (.node .nil
    -- M2/AUTOSARTemplates/SystemTemplate/__init__.py:395
    k!"RootSwCompositionPrototype" ⟨false, some (2, [.sup 2, .field k!"calibrationParameterValueSetRefs" .nil, .field k!"flatMapRef" .none, .field k!"softwareCompositionTRef" .none]),
     [(k!"getCalibrationParameterValueSetRefs", .get k!"calibrationParameterValueSetRefs") /- 424 -/,
      (k!"addCalibrationParameterValueSetRef", .add k!"calibrationParameterValueSetRefs" true false) /- 430 -/,
      (k!"getFlatMapRef", .get k!"flatMapRef") /- 439 -/,
      (k!"setFlatMapRef", .set k!"flatMapRef" true) /- 445 -/,
      (k!"getSoftwareCompositionTRef", .get k!"softwareCompositionTRef") /- 454 -/,
      (k!"setSoftwareCompositionTRef", .set k!"softwareCompositionTRef" true) /- 460 -/]⟩
    .nil))))

def accTable98 : Bst (ClassAcc) :=
 (.node (.node (.node (.node .nil
    -- M2/AUTOSARTemplates/CommonStructure/ServiceNeeds.py:4102
    k!"StorageConditionStatusEnum" ⟨false, some (0, [.sup 1]),
     []⟩
    .nil)
   -- M2/MSR/DataDictionary/RecordLayout.py:118
   k!"SwRecordLayoutGroupContent" ⟨false, some (0, [.sup 0, .field k!"swRecordLayoutRef" .none, .field k!"swRecordLayoutGroup" .none, .field k!"swRecordLayoutV" .none]),
     [(k!"getSwRecordLayoutRef", .get k!"swRecordLayoutRef") /- 140 -/,
      (k!"setSwRecordLayoutRef", .set k!"swRecordLayoutRef" false) /- 143 -/,
      (k!"getSwRecordLayoutGroup", .get k!"swRecordLayoutGroup") /- 147 -/,
      (k!"setSwRecordLayoutGroup", .set k!"swRecordLayoutGroup" false) /- 150 -/,
      (k!"getSwRecordLayoutV", .get k!"swRecordLayoutV") /- 154 -/,
      (k!"setSwRecordLayoutV", .set k!"swRecordLayoutV" false) /- 157 -/]⟩
   (.node .nil
    -- M2/AUTOSARTemplates/SWComponentTemplate/SwcInternalBehavior/__init__.py:85
    k!"SynchronousServerCallPoint" ⟨false, some (2, [.sup 2, .field k!"calledFromWithinExclusiveAreaRef" .none]),
     [(k!"getCalledFromWithinExclusiveAreaRef", .get k!"calledFromWithinExclusiveAreaRef") /- 96 -/,
      (k!"setCalledFromWithinExclusiveAreaRef", .set k!"calledFromWithinExclusiveAreaRef" false) /- 99 -/]⟩
    .nil))
  -- M2/AUTOSARTemplates/SWComponentTemplate/Communication.py:1374
  k!"TransformationComSpecProps" ⟨true, some (0, [.guard k!"TransformationComSpecProps", .sup 0]),
     []⟩
  (.node (.node .nil
    -- M2/AUTOSARTemplates/SystemTemplate/Transformer/__init__.py:1008
    k!"TransformationISignalProps" ⟨true, some (0, [.guard k!"TransformationISignalProps", .sup 0, .field k!"csErrorReaction" .none, .field k!"dataPrototypeTransformationProps" .nil, .field k!"transformerRef" .none]),
     [(k!"getCsErrorReaction", .get k!"csErrorReaction") /- 1038 -/,
      (k!"setCsErrorReaction", .set k!"csErrorReaction" true) /- 1044 -/,
      (k!"getDataPrototypeTransformationProps", .get k!"dataPrototypeTransformationProps") /- 1053 -/,
      (k!"setDataPrototypeTransformationProps", .set k!"dataPrototypeTransformationProps" true) /- 1059 -/,
      (k!"addDataPrototypeTransformationProps", .add k!"dataPrototypeTransformationProps" true false) /- 1068 -/,
      (k!"getTransformerRef", .get k!"transformerRef") /- 1077 -/,
      (k!"setTransformerRef", .set k!"transformerRef" true) /- 1083 -/]⟩
    .nil)
   -- M2/AUTOSARTemplates/CommonStructure/ServiceNeeds.py:4570
   k!"VendorSpecificServiceNeeds" ⟨false, some (2, [.sup 2]),
     []⟩
   (.node .nil
    -- M2/AUTOSARTemplates/AbstractPlatform/ApplicationDeferredDataType.py:9
    k!"ApplicationDeferredDataType" ⟨false, some (2, [.sup 2]),
     []⟩
    .nil)))
 -- M2/AUTOSARTemplates/SWComponentTemplate/SwcInternalBehavior/__init__.py:77
 k!"AsynchronousServerCallPoint" ⟨false, some (2, [.sup 2]),
     []⟩
 (.node (.node (.node .nil
    -- M2/AUTOSARTemplates/CommonStructure/Timing/TimingConstraint/EventTriggeringConstraint.py:127
    k!"BurstPatternEventTriggering" ⟨false, some (2, [.sup 2, .field k!"burst_size" .none, .field k!"burst_interval" .none]),
     [(k!"getBurstSize", .get k!"burst_size") /- 155 -/,
      (k!"setBurstSize", .set k!"burst_size" false) /- 158 -/,
      (k!"getBurstInterval", .get k!"burst_interval") /- 162 -/,
      (k!"setBurstInterval", .set k!"burst_interval" false) /- 165 -/]⟩
    .nil)
   -- M2/AUTOSARTemplates/CommonStructure/Constants/__init__.py:64
   k!"CompositeValueSpecification" ⟨true, some (0, [.guard k!"CompositeValueSpecification", .sup 0]),
     []⟩
   (.node .nil
    -- M2/AUTOSARTemplates/CommonStructure/ServiceNeeds.py:773
    k!"DiagnosticCapabilityElement" ⟨true, some (2, [.guard k!"DiagnosticCapabilityElement", .sup 2, .field k!"audiences" .nil, .field k!"diagRequirement" .none, .field k!"securityAccessLevel" .none]),
     [(k!"getAudiences", .get k!"audiences") /- 809 -/,
      (k!"addAudience", .add k!"audiences" false false) /- 818 -/,
      (k!"getDiagRequirement", .get k!"diagRequirement") /- 831 -/,
      (k!"setDiagRequirement", .set k!"diagRequirement" false) /- 840 -/,
      (k!"getSecurityAccessLevel", .get k!"securityAccessLevel") /- 854 -/,
      (k!"setSecurityAccessLevel", .set k!"securityAccessLevel" false) /- 863 -/]⟩
    .nil))
  -- M2/AUTOSARTemplates/CommonStructure/ServiceNeeds.py:2402
  k!"DiagnosticEventManagerNeeds" ⟨false, some (2, [.sup 2]),
     []⟩
  (.node (.node .nil
    -- M2/AUTOSARTemplates/CommonStructure/ServiceNeeds.py:3345
    k!"DiagnosticIndicatorTypeEnum" ⟨false, some (0, [.sup 1]),
     []⟩
    .nil)
   -- M2/AUTOSARTemplates/CommonStructure/ServiceNeeds.py:2786
   k!"DoIpGidSynchronizationNeeds" ⟨false, some (2, [.sup 2]),
     []⟩
   (.node .nil
    -- M2/AUTOSARTemplates/SystemTemplate/DoIp.py:28
    k!"DoIpLogicTargetAddressProps" ⟨false, some (2, [.sup 2]),
     []⟩
    .nil))))

-- M2/AUTOSARTemplates/SystemTemplate/DataMapping.py:208
def accTable99 : Bst (ClassAcc) :=
 .node accTable97 k!"SenderRecRecordTypeMapping" ⟨false, some (0, [.sup 0, .field k!"recordElementMappings" .nil]),
     [(k!"getRecordElementMappings", .get k!"recordElementMappings") /- 225 -/,
      (k!"addRecordElementMapping", .add k!"recordElementMappings" true false) /- 228 -/]⟩ accTable98

-- M2/MSR/AsamHdo/ComputationMethod.py:194
def accTable100 : Bst (ClassAcc) :=
 .node accTable96 k!"CompuScaleConstantContents" ⟨false, some (0, [.sup 0, .field k!"compuConst" .none]),
     [(k!"getCompuConst", .get k!"compuConst") /- 210 -/,
      (k!"setCompuConst", .set k!"compuConst" false) /- 213 -/]⟩ accTable99

def accTable101 : Bst (ClassAcc) :=
 (.node (.node (.node (.node (.node .nil
     -- M2/AUTOSARTemplates/CommonStructure/Timing/TimingConstraint/ExecutionOrderConstraint.py:157
     k!"EOCExecutableEntityRefGroup" ⟨false, some (0, [.sup 0, .field k!"entityRefs" .nil]),
     [(k!"addEntityRef", .add k!"entityRefs" false false) /- 175 -/,
      (k!"getEntityRefs", .get k!"entityRefs") /- 188 -/]⟩
     .nil)
    -- M2/AUTOSARTemplates/ECUCParameterDefTemplate.py:766
    k!"EcucDerivationSpecification" ⟨false, some (0, [.sup 0, .field k!"calculationFormula" .none, .field k!"ecucQueries" .nil, .field k!"informalFormula" .none]),
     [(k!"getCalculationFormula", .get k!"calculationFormula") /- 797 -/,
      (k!"setCalculationFormula", .set k!"calculationFormula" true) /- 803 -/,
      (k!"getEcucQueries", .get k!"ecucQueries") /- 812 -/,
      (k!"createEcucQuery", .other) /- 818 -/,
      (k!"getEcucQuery", .other) /- 831 -/,
      (k!"getInformalFormula", .get k!"informalFormula") /- 840 -/,
      (k!"setInformalFormula", .set k!"informalFormula" true) /- 846 -/]⟩
    .nil)
   -- M2/AUTOSARTemplates/ECUCParameterDefTemplate.py:2192
   k!"EcucMultilineStringParamDef" ⟨false, some (2, [.sup 2]),
     []⟩
   (.node .nil
    -- M2/AUTOSARTemplates/ECUCParameterDefTemplate.py:616
    k!"EcucValueConfigurationClass" ⟨false, some (0, [.sup 0]),
     []⟩
    .nil))
  -- M2/AUTOSARTemplates/SystemTemplate/Transformer/__init__.py:228
  k!"EndToEndProfileBehaviorEnum" ⟨false, some (0, [.sup 1]),
     []⟩
  (.node (.node .nil
    -- M2/AUTOSARTemplates/CommonStructure/Timing/TimingConstraint/ExecutionOrderConstraint.py:213
    k!"LetDataExchangeParadigmEnum" ⟨false, none,
     []⟩
    .nil)
   -- M2/AUTOSARTemplates/CommonStructure/ModeDeclaration.py:683
   k!"ModeErrorReactionPolicyEnum" ⟨false, some (0, [.sup 1]),
     []⟩
   (.node .nil
    -- M2/AUTOSARTemplates/CommonStructure/Constants/__init__.py:306
    k!"NumericalValueSpecification" ⟨false, some (0, [.sup 0, .field k!"value" .none]),
     [(k!"getValue", .get k!"value") /- 326 -/,
      (k!"setValue", .set k!"value" true) /- 335 -/]⟩
    .nil)))
 -- M2/AUTOSARTemplates/CommonStructure/ServiceNeeds.py:197
 k!"NvBlockNeedsReliabilityEnum" ⟨false, some (0, [.sup 1]),
     []⟩
 (.node (.node (.node .nil
    -- M2/AUTOSARTemplates/SWComponentTemplate/Components/InstanceRefs.py:130
    k!"RModeInAtomicSwcInstanceRef" ⟨false, some (0, [.sup 0, .field k!"baseRef" .none, .field k!"contextModeDeclarationGroupPrototypeRef" .none, .field k!"contextPortRef" .none, .field k!"targetModeDeclarationRef" .none]),
     [(k!"getBaseRef", .get k!"baseRef") /- 155 -/,
      (k!"setBaseRef", .set k!"baseRef" false) /- 158 -/,
      (k!"getContextModeDeclarationGroupPrototypeRef", .get k!"contextModeDeclarationGroupPrototypeRef") /- 162 -/,
      (k!"setContextModeDeclarationGroupPrototypeRef", .set k!"contextModeDeclarationGroupPrototypeRef" false) /- 165 -/,
      (k!"getContextPortRef", .get k!"contextPortRef") /- 169 -/,
      (k!"setContextPortRef", .set k!"contextPortRef" false) /- 172 -/,
      (k!"getTargetModeDeclarationRef", .get k!"targetModeDeclarationRef") /- 176 -/,
      (k!"setTargetModeDeclarationRef", .set k!"targetModeDeclarationRef" false) /- 179 -/]⟩
    .nil)
   -- M2/AUTOSARTemplates/CommonStructure/Constants/__init__.py:904
   k!"ReferenceValueSpecification" ⟨false, some (0, [.sup 0, .field k!"valueSpecRef" .none]),
     [(k!"getValueSpecRef", .get k!"valueSpecRef") /- 918 -/,
      (k!"setValueSpecRef", .set k!"valueSpecRef" false) /- 921 -/]⟩
   (.node .nil
    -- M2/AUTOSARTemplates/CommonStructure/ServiceNeeds.py:519
    k!"RoleBasedDataTypeAssignment" ⟨false, some (0, [.sup 0, .field k!"role" .none, .field k!"usedImplementationDataTypeRef" .none]),
     [(k!"getRole", .get k!"role") /- 543 -/,
      (k!"setRole", .set k!"role" false) /- 552 -/,
      (k!"getUsedImplementationDataTypeRef", .get k!"usedImplementationDataTypeRef") /- 566 -/,
      (k!"setUsedImplementationDataTypeRef", .set k!"usedImplementationDataTypeRef" false) /- 575 -/]⟩
    .nil))
  -- M2/AUTOSARTemplates/CommonStructure/Constants/__init__.py:1229
  k!"RuleBasedValueSpecification" ⟨false, some (0, [.sup 0, .field k!"arguments" .nil, .field k!"maxSizeToFill" .none, .field k!"rule" .none]),
     [(k!"addArgument", .add k!"arguments" true false) /- 1259 -/,
      (k!"getArguments", .get k!"arguments") /- 1273 -/,
      (k!"getMaxSizeToFill", .get k!"maxSizeToFill") /- 1282 -/,
      (k!"setMaxSizeToFill", .set k!"maxSizeToFill" true) /- 1291 -/,
      (k!"getRule", .get k!"rule") /- 1306 -/,
      (k!"setRule", .set k!"rule" true) /- 1316 -/]⟩
  (.node (.node .nil
    -- M2/AUTOSARTemplates/SystemTemplate/Fibex/FibexCore/CoreCommunication.py:2023
    k!"SecureCommunicationPropsSet" ⟨false, some (2, [.sup 2, .field k!"authenticationProps" .nil, .field k!"freshnessProps" .nil]),
     [(k!"createSecureCommunicationAuthenticationProps", .other) /- 2050 -/,
      (k!"getAuthenticationProps", .get k!"authenticationProps") /- 2060 -/,
      (k!"createSecureCommunicationFreshnessProps", .other) /- 2066 -/,
      (k!"getFreshnessProps", .get k!"freshnessProps") /- 2076 -/]⟩
    .nil)
   -- M2/AUTOSARTemplates/SWComponentTemplate/Components/__init__.py:821
   k!"ServiceProxySwComponentType" ⟨false, some (2, [.sup 2]),
     []⟩
   (.node .nil
    -- M2/AUTOSARTemplates/SystemTemplate/Fibex/Fibex4Ethernet/NetworkEndpoint.py:254
    k!"TimeSyncClientConfiguration" ⟨false, some (0, [.sup 0, .field k!"orderedMasters" .nil, .field k!"timeSyncTechnology" .none]),
     [(k!"getOrderedMasters", .get k!"orderedMasters") /- 274 -/,
      (k!"addOrderedMaster", .add k!"orderedMasters" true false) /- 277 -/,
      (k!"getTimeSyncTechnology", .get k!"timeSyncTechnology") /- 282 -/,
      (k!"setTimeSyncTechnology", .set k!"timeSyncTechnology" true) /- 285 -/]⟩
    .nil))))

def accTable102 : Bst (ClassAcc) :=
 (.node (.node (.node (.node .nil
    -- M2/AUTOSARTemplates/SystemTemplate/Fibex/FibexCore/Timing.py:203
    k!"TransmissionModeDeclaration" ⟨false, some (0, [.sup 0, .field k!"modeDrivenFalseConditions" .nil, .field k!"modeDrivenTrueConditions" .nil, .field k!"transmissionModeConditions" .nil, .field k!"transmissionModeFalseTiming" .none, .field k!"transmissionModeTrueTiming" .none]),
     [(k!"getModeDrivenFalseConditions", .get k!"modeDrivenFalseConditions") /- 231 -/,
      (k!"addModeDrivenFalseCondition", .add k!"modeDrivenFalseConditions" false false) /- 234 -/,
      (k!"getModeDrivenTrueConditions", .get k!"modeDrivenTrueConditions") /- 238 -/,
      (k!"addModeDrivenTrueCondition", .add k!"modeDrivenTrueConditions" false false) /- 241 -/,
      (k!"getTransmissionModeConditions", .get k!"transmissionModeConditions") /- 245 -/,
      (k!"addTransmissionModeCondition", .add k!"transmissionModeConditions" false false) /- 248 -/,
      (k!"getTransmissionModeFalseTiming", .get k!"transmissionModeFalseTiming") /- 252 -/,
      (k!"setTransmissionModeFalseTiming", .set k!"transmissionModeFalseTiming" false) /- 255 -/,
      (k!"getTransmissionModeTrueTiming", .get k!"transmissionModeTrueTiming") /- 259 -/,
      (k!"setTransmissionModeTrueTiming", .set k!"transmissionModeTrueTiming" false) /- 262 -/]⟩
    .nil)
   -- M2/AUTOSARTemplates/SWComponentTemplate/Datatype/Datatypes.py:73
   k!"ApplicationCompositeDataType" ⟨true, some (2, [.guard k!"ApplicationCompositeDataType", .sup 2]),
     []⟩
   (.node .nil
    -- M2/AUTOSARTemplates/SWComponentTemplate/Datatype/Datatypes.py:60
    k!"ApplicationPrimitiveDataType" ⟨false, some (2, [.sup 2]),
     []⟩
    .nil))
  -- M2/AUTOSARTemplates/GenericStructure/VariantHandling/AttributeValueVariationPoints/__init__.py:15
  k!"AttributeValueVariationPoint" ⟨true, some (0, [.guard k!"AttributeValueVariationPoint", .sup 0, .field k!"bindingTime" .none, .field k!"blueprintValue" .none, .field k!"sd" .none, .field k!"shortLabel" .none, .field k!"_text" .none]),
     [(k!"getBindingTime", .get k!"bindingTime") /- 66 -/,
      (k!"setBindingTime", .set k!"bindingTime" true) /- 72 -/,
      (k!"getBlueprintValue", .get k!"blueprintValue") /- 80 -/,
      (k!"setBlueprintValue", .set k!"blueprintValue" true) /- 86 -/,
      (k!"getSd", .get k!"sd") /- 94 -/,
      (k!"setSd", .set k!"sd" true) /- 100 -/,
      (k!"getShortLabel", .get k!"shortLabel") /- 108 -/,
      (k!"setShortLabel", .set k!"shortLabel" true) /- 114 -/,
      (k!"getText", .get k!"_text") /- 122 -/,
      (k!"setText", .set k!"_text" true) /- 126 -/]⟩
  (.node (.node .nil
    -- M2/AUTOSARTemplates/BswModuleTemplate/BswBehavior/__init__.py:1972
    k!"BswQueuedDataReceptionPolicy" ⟨false, some (0, [.sup 0, .field k!"queueLength" .none]),
     [(k!"getQueueLength", .get k!"queueLength") /- 1992 -/,
      (k!"setQueueLength", .set k!"queueLength" true) /- 2001 -/]⟩
    .nil)
   -- M2/AUTOSARTemplates/SystemTemplate/Fibex/Fibex4Can/CanTopology.py:13
   k!"CanControllerFdConfiguration" ⟨false, some (0, [.sup 0, .field k!"paddingValue" .none, .field k!"propSeg" .none, .field k!"sspOffset" .none, .field k!"syncJumpWidth" .none, .field k!"timeSeg1" .none, .field k!"timeSeg2" .none, .field k!"txBitRateSwitch" .none]),
     [(k!"getPaddingValue", .get k!"paddingValue") /- 60 -/,
      (k!"setPaddingValue", .set k!"paddingValue" true) /- 66 -/,
      (k!"getPropSeg", .get k!"propSeg") /- 75 -/,
      (k!"setPropSeg", .set k!"propSeg" true) /- 81 -/,
      (k!"getSspOffset", .get k!"sspOffset") /- 90 -/,
      (k!"setSspOffset", .set k!"sspOffset" true) /- 96 -/,
      (k!"getSyncJumpWidth", .get k!"syncJumpWidth") /- 105 -/,
      (k!"setSyncJumpWidth", .set k!"syncJumpWidth" true) /- 111 -/,
      (k!"getTimeSeg1", .get k!"timeSeg1") /- 120 -/,
      (k!"setTimeSeg1", .set k!"timeSeg1" true) /- 126 -/,
      (k!"getTimeSeg2", .get k!"timeSeg2") /- 135 -/,
      (k!"setTimeSeg2", .set k!"timeSeg2" true) /- 141 -/,
      (k!"getTxBitRateSwitch", .get k!"txBitRateSwitch") /- 150 -/,
      (k!"setTxBitRateSwitch", .set k!"txBitRateSwitch" true) /- 156 -/]⟩
   (.node .nil
    -- M2/AUTOSARTemplates/SystemTemplate/Fibex/Fibex4Can/CanTopology.py:291
    k!"CanControllerXlConfiguration" ⟨false, some (0, [.sup 0, .field k!"errorSignalingEnabled" .none, .field k!"propSeg" .none, .field k!"pwmL" .none, .field k!"pwmO" .none, .field k!"pwmS" .none, .field k!"sspOffset" .none, .field k!"syncJumpWidth" .none, .field k!"timeSeg1" .none, .field k!"timeSeg2" .none, .field k!"trcvPwmModeEnabled" .none]),
     [(k!"getErrorSignalingEnabled", .get k!"errorSignalingEnabled") /- 353 -/,
      (k!"setErrorSignalingEnabled", .set k!"errorSignalingEnabled" true) /- 357 -/,
      (k!"getPropSeg", .get k!"propSeg") /- 364 -/,
      (k!"setPropSeg", .set k!"propSeg" true) /- 368 -/,
      (k!"getPwmL", .get k!"pwmL") /- 375 -/,
      (k!"setPwmL", .set k!"pwmL" true) /- 379 -/,
      (k!"getPwmO", .get k!"pwmO") /- 386 -/,
      (k!"setPwmO", .set k!"pwmO" true) /- 390 -/,
      (k!"getPwmS", .get k!"pwmS") /- 397 -/,
      (k!"setPwmS", .set k!"pwmS" true) /- 401 -/,
      (k!"getSspOffset", .get k!"sspOffset") /- 408 -/,
      (k!"setSspOffset", .set k!"sspOffset" true) /- 412 -/,
      (k!"getSyncJumpWidth", .get k!"syncJumpWidth") /- 419 -/,
      (k!"setSyncJumpWidth", .set k!"syncJumpWidth" true) /- 423 -/,
      (k!"getTimeSeg1", .get k!"timeSeg1") /- 430 -/,
      (k!"setTimeSeg1", .set k!"timeSeg1" true) /- 434 -/,
      (k!"getTimeSeg2", .get k!"timeSeg2") /- 441 -/,
      (k!"setTimeSeg2", .set k!"timeSeg2" true) /- 445 -/,
      (k!"getTrcvPwmModeEnabled", .get k!"trcvPwmModeEnabled") /- 452 -/,
      (k!"setTrcvPwmModeEnabled", .set k!"trcvPwmModeEnabled" true) /- 456 -/]⟩
    .nil)))
 -- M2/AUTOSARTemplates/SWComponentTemplate/PortInterface/__init__.py:1128
 k!"ClientServerInterfaceMapping" ⟨false, some (2, [.sup 2, .field k!"errorMappings" .nil, .field k!"operationMappings" .nil]),
     [(k!"getErrorMappings", .get k!"errorMappings") /- 1142 -/,
      (k!"addErrorMapping", .add k!"errorMappings" true false) /- 1145 -/,
      (k!"getOperationMappings", .get k!"operationMappings") /- 1150 -/,
      (k!"addOperationMapping", .add k!"operationMappings" true false) /- 1153 -/]⟩
 (.node (.node (.node .nil
    -- M2/AUTOSARTemplates/SWComponentTemplate/PortInterface/__init__.py:831
    k!"ClientServerOperationMapping" ⟨false, some (0, [.sup 0, .field k!"argumentMappings" .nil, .field k!"firstOperationRef" .none, .field k!"firstToSecondDataTransformationRef" .none, .field k!"secondOperationRef" .none]),
     [(k!"getArgumentMappings", .get k!"argumentMappings") /- 851 -/,
      (k!"addArgumentMapping", .add k!"argumentMappings" false false) /- 854 -/,
      (k!"getFirstOperationRef", .get k!"firstOperationRef") /- 858 -/,
      (k!"setFirstOperationRef", .set k!"firstOperationRef" false) /- 861 -/,
      (k!"getFirstToSecondDataTransformationRef", .get k!"firstToSecondDataTransformationRef") /- 865 -/,
      (k!"setFirstToSecondDataTransformationRef", .set k!"firstToSecondDataTransformationRef" false) /- 868 -/,
      (k!"getSecondOperationRef", .get k!"secondOperationRef") /- 872 -/,
      (k!"setSecondOperationRef", .set k!"secondOperationRef" false) /- 875 -/]⟩
    .nil)
   -- M2/AUTOSARTemplates/SystemTemplate/InstanceRefs.py:73
   k!"ComponentInSystemInstanceRef" ⟨false, some (0, [.sup 0, .field k!"baseRef" .none, .field k!"contextComponentRefs" .nil, .field k!"contextCompositionRef" .none, .field k!"targetComponentRef" .none]),
     [(k!"getBaseRef", .get k!"baseRef") /- 97 -/,
      (k!"setBaseRef", .set k!"baseRef" false) /- 100 -/,
      (k!"getContextComponentRefs", .get k!"contextComponentRefs") /- 104 -/,
      (k!"addContextComponentRef", .add k!"contextComponentRefs" false false) /- 107 -/,
      (k!"getContextCompositionRef", .get k!"contextCompositionRef") /- 111 -/,
      (k!"setContextCompositionRef", .set k!"contextCompositionRef" false) /- 114 -/,
      (k!"getTargetComponentRef", .get k!"targetComponentRef") /- 118 -/,
      (k!"setTargetComponentRef", .set k!"targetComponentRef" false) /- 121 -/]⟩
   (.node .nil
    -- M2/AUTOSARTemplates/CommonStructure/Constants/__init__.py:727
    k!"ConstantSpecificationMapping" ⟨false, some (0, [.sup 0, .field k!"sourceRef" .none, .field k!"targetRef" .none]),
     [(k!"getSourceRef", .get k!"sourceRef") /- 744 -/,
      (k!"setSourceRef", .set k!"sourceRef" false) /- 747 -/,
      (k!"getTargetRef", .get k!"targetRef") /- 751 -/,
      (k!"setTargetRef", .set k!"targetRef" false) /- 754 -/]⟩
    .nil))
  -- M2/AUTOSARTemplates/SystemTemplate/Transformer/__init__.py:253
  k!"E2EProfileCompatibilityProps" ⟨false, some (2, [.sup 2, .field k!"transitToInvalidExtended" .none]),
     [(k!"getTransitToInvalidExtended", .get k!"transitToInvalidExtended") /- 272 -/,
      (k!"setTransitToInvalidExtended", .set k!"transitToInvalidExtended" true) /- 278 -/]⟩
  (.node (.node .nil
    -- M2/AUTOSARTemplates/ECUCDescriptionTemplate.py:436
    k!"EcucConfigurationVariantEnum" ⟨false, some (0, [.sup 1]),
     []⟩
    .nil)
   -- M2/AUTOSARTemplates/ECUCParameterDefTemplate.py:349
   k!"EcucDestinationUriDefRefType" ⟨false, some (0, [.sup 0]),
     []⟩
   (.node .nil
    -- M2/AUTOSARTemplates/ECUCParameterDefTemplate.py:1023
    k!"EcucSymbolicNameReferenceDef" ⟨false, some (2, [.sup 2, .field k!"destinationRef" .none]),
     [(k!"getDestinationRef", .get k!"destinationRef") /- 1039 -/,
      (k!"setDestinationRef", .set k!"destinationRef" true) /- 1045 -/]⟩
    .nil))))

-- M2/AUTOSARTemplates/SystemTemplate/Fibex/Fibex4Ethernet/NetworkEndpoint.py:291
def accTable103 : Bst (ClassAcc) :=
 .node accTable101 k!"TimeSyncServerConfiguration" ⟨false, some (2, [.sup 2, .field k!"priority" .none, .field k!"syncInterval" .none, .field k!"timeSyncServerIdentifier" .none, .field k!"timeSyncTechnology" .none]),
     [(k!"getPriority", .get k!"priority") /- 317 -/,
      (k!"setPriority", .set k!"priority" true) /- 320 -/,
      (k!"getSyncInterval", .get k!"syncInterval") /- 325 -/,
      (k!"setSyncInterval", .set k!"syncInterval" true) /- 328 -/,
      (k!"getTimeSyncServerIdentifier", .get k!"timeSyncServerIdentifier") /- 333 -/,
      (k!"setTimeSyncServerIdentifier", .set k!"timeSyncServerIdentifier" true) /- 336 -/,
      (k!"getTimeSyncTechnology", .get k!"timeSyncTechnology") /- 341 -/,
      (k!"setTimeSyncTechnology", .set k!"timeSyncTechnology" true) /- 344 -/]⟩ accTable102

def accTable104 : Bst (ClassAcc) :=
 (.node (.node (.node (.node (.node .nil
     -- M2/AUTOSARTemplates/SWComponentTemplate/SwcInternalBehavior/Trigger.py:59
     k!"ExternalTriggeringPointIdent" ⟨false, some (2, [.sup 2]),
     []⟩
     .nil)
    -- M2/AUTOSARTemplates/SWComponentTemplate/SwcInternalBehavior/RTEEvents.py:464
    k!"InternalTriggerOccurredEvent" ⟨false, some (2, [.sup 2, .field k!"eventSourceRef" .none]),
     [(k!"getEventSourceRef", .get k!"eventSourceRef") /- 480 -/,
      (k!"setEventSourceRef", .set k!"eventSourceRef" true) /- 489 -/]⟩
    .nil)
   -- M2/AUTOSARTemplates/GenericStructure/VariantHandling/AttributeValueVariationPoints/__init__.py:155
   k!"NumericalValueVariationPoint" ⟨false, some (0, [.sup 0]),
     []⟩
   (.node .nil
    -- M2/AUTOSARTemplates/CommonStructure/ResourceConsumption/ExecutionTime/__init__.py:645
    k!"RoughEstimateOfExecutionTime" ⟨false, some (2, [.sup 2, .field k!"additionalInformation" .none, .field k!"estimatedExecutionTime" .none]),
     [(k!"getAdditionalInformation", .get k!"additionalInformation") /- 678 -/,
      (k!"setAdditionalInformation", .set k!"additionalInformation" true) /- 687 -/,
      (k!"getEstimatedExecutionTime", .get k!"estimatedExecutionTime") /- 701 -/,
      (k!"setEstimatedExecutionTime", .set k!"estimatedExecutionTime" true) /- 710 -/]⟩
    .nil))
  -- M2/AUTOSARTemplates/SystemTemplate/DataMapping.py:282
  k!"SenderRecArrayElementMapping" ⟨false, some (0, [.sup 0, .field k!"complexTypeMapping" .none, .field k!"indexedArrayElement" .none, .field k!"systemSignalRef" .none]),
     [(k!"getComplexTypeMapping", .get k!"complexTypeMapping") /- 305 -/,
      (k!"setComplexTypeMapping", .set k!"complexTypeMapping" true) /- 308 -/,
      (k!"getIndexedArrayElement", .get k!"indexedArrayElement") /- 313 -/,
      (k!"setIndexedArrayElement", .set k!"indexedArrayElement" true) /- 316 -/,
      (k!"getSystemSignalRef", .get k!"systemSignalRef") /- 321 -/,
      (k!"setSystemSignalRef", .set k!"systemSignalRef" true) /- 324 -/]⟩
  (.node (.node .nil
    -- M2/AUTOSARTemplates/SWComponentTemplate/PortInterface/__init__.py:346
    k!"ServerArgumentImplPolicyEnum" ⟨false, some (0, [.sup 1]),
     []⟩
    .nil)
   -- M2/AUTOSARTemplates/GenericStructure/VariantHandling/AttributeValueVariationPoints/__init__.py:304
   k!"TimeValueValueVariationPoint" ⟨false, some (0, [.sup 0]),
     []⟩
   (.node .nil
    -- M2/AUTOSARTemplates/SystemTemplate/DoIp.py:11
    k!"AbstractDoIpLogicAddressProps" ⟨true, some (2, [.guard k!"AbstractDoIpLogicAddressProps", .sup 2]),
     []⟩
    .nil)))
 -- M2/AUTOSARTemplates/SWComponentTemplate/Components/__init__.py:297
 k!"AbstractProvidedPortPrototype" ⟨false, some (2, [.guard k!"AbstractProvidedPortPrototype", .sup 2, .field k!"providedComSpecs" .nil]),
     [(k!"_validateRPortComSpec", .other) /- 312 -/,
      (k!"addProvidedComSpec", .other) /- 331 -/,
      (k!"getProvidedComSpecs", .get k!"providedComSpecs") /- 335 -/,
      (k!"getNonqueuedSenderComSpecs", .other) /- 338 -/]⟩
 (.node (.node (.node .nil
    -- M2/AUTOSARTemplates/SWComponentTemplate/Components/__init__.py:342
    k!"AbstractRequiredPortPrototype" ⟨false, some (2, [.guard k!"AbstractRequiredPortPrototype", .sup 2, .field k!"requiredComSpecs" .nil]),
     [(k!"_validateRPortComSpec", .other) /- 358 -/,
      (k!"addRequiredComSpec", .other) /- 378 -/,
      (k!"getRequiredComSpecs", .get k!"requiredComSpecs") /- 382 -/,
      (k!"getClientComSpecs", .other) /- 385 -/,
      (k!"getNonqueuedReceiverComSpecs", .other) /- 388 -/]⟩
    .nil)
   -- M2/AUTOSARTemplates/CommonStructure/Constants/__init__.py:121
   k!"ApplicationValueSpecification" ⟨false, some (0, [.base k!"CompositeRuleBasedValueArgument" 0, .base k!"ValueSpecification" 0, .field k!"category" .none, .field k!"swAxisCont" .nil, .field k!"swValueCont" .none]),
     [(k!"getCategory", .get k!"category") /- 152 -/,
      (k!"setCategory", .set k!"category" false) /- 161 -/,
      (k!"getSwAxisCont", .get k!"swAxisCont") /- 175 -/,
      (k!"setSwAxisCont", .set k!"swAxisCont" false) /- 184 -/,
      (k!"getSwValueCont", .get k!"swValueCont") /- 198 -/,
      (k!"setSwValueCont", .set k!"swValueCont" false) /- 207 -/]⟩
   (.node .nil
    -- M2/AUTOSARTemplates/BswModuleTemplate/BswBehavior/__init__.py:212
    k!"BswSynchronousServerCallPoint" ⟨false, some (2, [.sup 2, .field k!"calledEntryRef" .none, .field k!"calledFromWithinExclusiveAreaRef" .none]),
     [(k!"getCalledEntryRef", .get k!"calledEntryRef") /- 240 -/,
      (k!"setCalledEntryRef", .set k!"calledEntryRef" true) /- 249 -/,
      (k!"getCalledFromWithinExclusiveAreaRef", .get k!"calledFromWithinExclusiveAreaRef") /- 264 -/,
      (k!"setCalledFromWithinExclusiveAreaRef", .set k!"calledFromWithinExclusiveAreaRef" true) /- 273 -/]⟩
    .nil))
  -- M2/AUTOSARTemplates/SystemTemplate/Fibex/Fibex4Ethernet/EthernetTopology.py:96
  k!"CouplingPortStructuralElement" ⟨true, some (2, [.guard k!"CouplingPortStructuralElement", .sup 2]),
     []⟩
  (.node (.node .nil
    -- M2/AUTOSARTemplates/CommonStructure/ServiceNeeds.py:1265
    k!"DiagEventDebounceCounterBased" ⟨false, some (2, [.sup 2, .field k!"counterBasedFdcThresholdStorageValue" .none, .field k!"counterDecrementStepSize" .none, .field k!"counterFailedThreshold" .none, .field k!"counterIncrementStepSize" .none, .field k!"counterJumpDown" .none, .field k!"counterJumpDownValue" .none, .field k!"counterJumpUp" .none, .field k!"counterJumpUpValue" .none, .field k!"counterPassedThreshold" .none]),
     [(k!"getCounterBasedFdcThresholdStorageValue", .get k!"counterBasedFdcThresholdStorageValue") /- 1321 -/,
      (k!"setCounterBasedFdcThresholdStorageValue", .set k!"counterBasedFdcThresholdStorageValue" false) /- 1324 -/,
      (k!"getCounterDecrementStepSize", .get k!"counterDecrementStepSize") /- 1328 -/,
      (k!"setCounterDecrementStepSize", .set k!"counterDecrementStepSize" false) /- 1331 -/,
      (k!"getCounterFailedThreshold", .get k!"counterFailedThreshold") /- 1335 -/,
      (k!"setCounterFailedThreshold", .set k!"counterFailedThreshold" false) /- 1338 -/,
      (k!"getCounterIncrementStepSize", .get k!"counterIncrementStepSize") /- 1342 -/,
      (k!"setCounterIncrementStepSize", .set k!"counterIncrementStepSize" false) /- 1345 -/,
      (k!"getCounterJumpDown", .get k!"counterJumpDown") /- 1349 -/,
      (k!"setCounterJumpDown", .set k!"counterJumpDown" false) /- 1352 -/,
      (k!"getCounterJumpDownValue", .get k!"counterJumpDownValue") /- 1356 -/,
      (k!"setCounterJumpDownValue", .set k!"counterJumpDownValue" false) /- 1359 -/,
      (k!"getCounterJumpUp", .get k!"counterJumpUp") /- 1363 -/,
      (k!"setCounterJumpUp", .set k!"counterJumpUp" false) /- 1366 -/,
      (k!"getCounterJumpUpValue", .get k!"counterJumpUpValue") /- 1370 -/,
      (k!"setCounterJumpUpValue", .set k!"counterJumpUpValue" false) /- 1373 -/,
      (k!"getCounterPassedThreshold", .get k!"counterPassedThreshold") /- 1377 -/,
      (k!"setCounterPassedThreshold", .set k!"counterPassedThreshold" false) /- 1380 -/]⟩
    .nil)
   -- M2/AUTOSARTemplates/CommonStructure/ServiceNeeds.py:2587
   k!"DiagnosticOperationCycleNeeds" ⟨false, some (2, [.sup 2, .field k!"operationCycle" .none]),
     [(k!"getOperationCycle", .get k!"operationCycle") /- 2612 -/,
      (k!"setOperationCycle", .set k!"operationCycle" true) /- 2621 -/]⟩
   (.node .nil
    -- M2/AUTOSARTemplates/CommonStructure/ServiceNeeds.py:1056
    k!"DiagnosticProcessingStyleEnum" ⟨false, some (0, [.sup 1]),
     []⟩
    .nil))))

def accTable105 : Bst (ClassAcc) :=
 (.node (.node (.node (.node .nil
    -- M2/AUTOSARTemplates/SWComponentTemplate/Components/__init__.py:587
    k!"EcuAbstractionSwComponentType" ⟨false, some (2, [.sup 2, .field k!"hardwareElementRefs" .nil]),
     [(k!"getHardwareElementRefs", .get k!"hardwareElementRefs") /- 604 -/,
      (k!"addHardwareElementRef", .add k!"hardwareElementRefs" true false) /- 615 -/]⟩
    .nil)
   -- M2/AUTOSARTemplates/ECUCDescriptionTemplate.py:357
   k!"EcucModuleConfigurationValues" ⟨false, some (2, [.sup 2, .field k!"containers" .nil, .field k!"definitionRef" .none, .field k!"ecucDefEdition" .none, .field k!"implementationConfigVariant" .none, .field k!"moduleDescriptionRef" .none, .field k!"postBuildVariantUsed" .none]),
     [(k!"createContainer", .other) /- 390 -/,
      (k!"getContainers", .other) /- 397 -/,
      (k!"getDefinitionRef", .get k!"definitionRef") /- 400 -/,
      (k!"setDefinitionRef", .set k!"definitionRef" false) /- 403 -/,
      (k!"getEcucDefEdition", .get k!"ecucDefEdition") /- 407 -/,
      (k!"setEcucDefEdition", .set k!"ecucDefEdition" false) /- 410 -/,
      (k!"getImplementationConfigVariant", .get k!"implementationConfigVariant") /- 414 -/,
      (k!"setImplementationConfigVariant", .set k!"implementationConfigVariant" false) /- 417 -/,
      (k!"getModuleDescriptionRef", .get k!"moduleDescriptionRef") /- 421 -/,
      (k!"setModuleDescriptionRef", .set k!"moduleDescriptionRef" false) /- 424 -/,
      (k!"getPostBuildVariantUsed", .get k!"postBuildVariantUsed") /- 428 -/,
      (k!"setPostBuildVariantUsed", .set k!"postBuildVariantUsed" false) /- 431 -/]⟩
   (.node .nil
    -- M2/AUTOSARTemplates/SWComponentTemplate/EndToEndProtection.py:318
    k!"EndToEndProtectionISignalIPdu" ⟨false, some (0, [.sup 0, .field k!"dataOffset" .none, .field k!"iSignalGroupRef" .none, .field k!"iSignalIPduRef" .none]),
     [(k!"getDataOffset", .get k!"dataOffset") /- 340 -/,
      (k!"setDataOffset", .set k!"dataOffset" false) /- 349 -/,
      (k!"getISignalGroupRef", .get k!"iSignalGroupRef") /- 362 -/,
      (k!"setISignalGroupRef", .set k!"iSignalGroupRef" false) /- 371 -/,
      (k!"getISignalIPduRef", .get k!"iSignalIPduRef") /- 384 -/,
      (k!"setISignalIPduRef", .set k!"iSignalIPduRef" false) /- 393 -/]⟩
    .nil))
  -- M2/AUTOSARTemplates/SystemTemplate/Fibex/Fibex4Flexray/FlexrayTopology.py:534
  k!"FlexrayCommunicationConnector" ⟨false, some (2, [.sup 2, .field k!"nmReadySleepTime" .none, .field k!"pncFilterDataMask" .none, .field k!"wakeUpChannel" .none]),
     [(k!"getNmReadySleepTime", .get k!"nmReadySleepTime") /- 557 -/,
      (k!"setNmReadySleepTime", .set k!"nmReadySleepTime" true) /- 560 -/,
      (k!"getPncFilterDataMask", .get k!"pncFilterDataMask") /- 565 -/,
      (k!"setPncFilterDataMask", .set k!"pncFilterDataMask" true) /- 568 -/,
      (k!"getWakeUpChannel", .get k!"wakeUpChannel") /- 573 -/,
      (k!"setWakeUpChannel", .set k!"wakeUpChannel" true) /- 576 -/]⟩
  (.node (.node .nil
    -- M2/AUTOSARTemplates/CommonStructure/ImplementationDataTypes.py:25
    k!"ImplementationDataTypeElement" ⟨false, some (2, [.sup 2, .field k!"arrayImplPolicy" .none, .field k!"arraySize" .none, .field k!"arraySizeHandling" .none, .field k!"arraySizeSemantics" .none, .field k!"isOptional" .none, .field k!"subElements" .nil, .field k!"swDataDefProps" .none]),
     [(k!"getArrayImplPolicy", .get k!"arrayImplPolicy") /- 62 -/,
      (k!"setArrayImplPolicy", .set k!"arrayImplPolicy" true) /- 65 -/,
      (k!"getArraySize", .get k!"arraySize") /- 70 -/,
      (k!"setArraySize", .set k!"arraySize" true) /- 73 -/,
      (k!"getArraySizeHandling", .get k!"arraySizeHandling") /- 78 -/,
      (k!"setArraySizeHandling", .set k!"arraySizeHandling" true) /- 81 -/,
      (k!"getArraySizeSemantics", .get k!"arraySizeSemantics") /- 86 -/,
      (k!"setArraySizeSemantics", .set k!"arraySizeSemantics" true) /- 89 -/,
      (k!"getIsOptional", .get k!"isOptional") /- 94 -/,
      (k!"setIsOptional", .set k!"isOptional" true) /- 97 -/,
      (k!"getSwDataDefProps", .get k!"swDataDefProps") /- 102 -/,
      (k!"setSwDataDefProps", .set k!"swDataDefProps" true) /- 105 -/,
      (k!"createImplementationDataTypeElement", .other) /- 110 -/,
      (k!"getSubElements", .get k!"subElements") /- 117 -/]⟩
    .nil)
   -- M2/AUTOSARTemplates/SWComponentTemplate/Composition/__init__.py:291
   k!"InstantiationTimingEventProps" ⟨false, some (0, [.sup 0, .field k!"period" .none]),
     [(k!"getPeriod", .get k!"period") /- 310 -/,
      (k!"setPeriod", .set k!"period" true) /- 319 -/]⟩
   (.node .nil
    -- M2/AUTOSARTemplates/CommonStructure/ModeDeclaration.py:456
    k!"ModeDeclarationGroupPrototype" ⟨false, some (2, [.sup 2, .field k!"swCalibrationAccess" .none, .field k!"typeTRef" .none]),
     [(k!"getSwCalibrationAccess", .get k!"swCalibrationAccess") /- 480 -/,
      (k!"setSwCalibrationAccess", .set k!"swCalibrationAccess" true) /- 491 -/,
      (k!"getTypeTRef", .get k!"typeTRef") /- 508 -/,
      (k!"setTypeTRef", .set k!"typeTRef" true) /- 519 -/]⟩
    .nil)))
 -- M2/AUTOSARTemplates/SWComponentTemplate/Composition/InstanceRefs.py:61
 k!"PPortInCompositionInstanceRef" ⟨false, some (0, [.sup 0, .field k!"contextComponentRef" .none, .field k!"targetPPortRef" .none]),
     [(k!"getContextComponentRef", .get k!"contextComponentRef") /- 80 -/,
      (k!"setContextComponentRef", .set k!"contextComponentRef" false) /- 83 -/,
      (k!"getTargetPPortRef", .get k!"targetPPortRef") /- 87 -/,
      (k!"setTargetPPortRef", .set k!"targetPPortRef" false) /- 90 -/]⟩
 (.node (.node (.node .nil
    -- M2/AUTOSARTemplates/SWComponentTemplate/Composition/InstanceRefs.py:95
    k!"RPortInCompositionInstanceRef" ⟨false, some (0, [.sup 0, .field k!"contextComponentRef" .none, .field k!"targetRPortRef" .none]),
     [(k!"getContextComponentRef", .get k!"contextComponentRef") /- 114 -/,
      (k!"setContextComponentRef", .set k!"contextComponentRef" false) /- 117 -/,
      (k!"getTargetRPortRef", .get k!"targetRPortRef") /- 121 -/,
      (k!"setTargetRPortRef", .set k!"targetRPortRef" false) /- 124 -/]⟩
    .nil)
   -- M2/AUTOSARTemplates/SWComponentTemplate/RPTScenario.py:142
   k!"RptExecutableEntityProperties" ⟨false, some (0, [.sup 0, .field k!"maxRptEventId" .none, .field k!"minRptEventId" .none, .field k!"rptExecutionControl" .none, .field k!"rptServicePoint" .none]),
     [(k!"getMaxRptEventId", .get k!"maxRptEventId") /- 178 -/,
      (k!"setMaxRptEventId", .set k!"maxRptEventId" true) /- 187 -/,
      (k!"getMinRptEventId", .get k!"minRptEventId") /- 202 -/,
      (k!"setMinRptEventId", .set k!"minRptEventId" true) /- 211 -/,
      (k!"getRptExecutionControl", .get k!"rptExecutionControl") /- 226 -/,
      (k!"setRptExecutionControl", .set k!"rptExecutionControl" true) /- 235 -/,
      (k!"getRptServicePoint", .get k!"rptServicePoint") /- 250 -/,
      (k!"setRptServicePoint", .set k!"rptServicePoint" true) /- 259 -/]⟩
   (.node .nil
    -- M2/AUTOSARTemplates/SystemTemplate/DataMapping.py:109
    k!"SenderRecCompositeTypeMapping" ⟨true, some (0, [.guard k!"SenderRecCompositeTypeMapping", .sup 0]),
     []⟩
    .nil))
  -- M2/AUTOSARTemplates/SystemTemplate/DataMapping.py:126
  k!"SenderRecRecordElementMapping" ⟨false, some (0, [.sup 0, .field k!"applicationRecordElementRef" .none, .field k!"complexTypeMapping" .none, .field k!"implementationRecordElementRef" .none, .field k!"senderToSignalTextTableMapping" .none, .field k!"signalToReceiverTextTableMapping" .none, .field k!"systemSignalRef" .none]),
     [(k!"getApplicationRecordElementRef", .get k!"applicationRecordElementRef") /- 159 -/,
      (k!"setApplicationRecordElementRef", .set k!"applicationRecordElementRef" true) /- 162 -/,
      (k!"getComplexTypeMapping", .get k!"complexTypeMapping") /- 167 -/,
      (k!"setComplexTypeMapping", .set k!"complexTypeMapping" true) /- 170 -/,
      (k!"getImplementationRecordElementRef", .get k!"implementationRecordElementRef") /- 175 -/,
      (k!"setImplementationRecordElementRef", .set k!"implementationRecordElementRef" true) /- 178 -/,
      (k!"getSenderToSignalTextTableMapping", .get k!"senderToSignalTextTableMapping") /- 183 -/,
      (k!"setSenderToSignalTextTableMapping", .set k!"senderToSignalTextTableMapping" true) /- 186 -/,
      (k!"getSignalToReceiverTextTableMapping", .get k!"signalToReceiverTextTableMapping") /- 191 -/,
      (k!"setSignalToReceiverTextTableMapping", .set k!"signalToReceiverTextTableMapping" true) /- 194 -/,
      (k!"getSystemSignalRef", .get k!"systemSignalRef") /- 199 -/,
      (k!"setSystemSignalRef", .set k!"systemSignalRef" true) /- 202 -/]⟩
  (.node (.node .nil
    -- M2/AUTOSARTemplates/SystemTemplate/DataMapping.py:43
    k!"SenderReceiverToSignalMapping" ⟨false, some (0, [.sup 0, .field k!"communicationDirection" .none, .field k!"dataElementIRef" .none, .field k!"senderToSignalTextTableMapping" .none, .field k!"signalToReceiverTextTableMapping" .none, .field k!"systemSignalRef" .none]),
     [(k!"getCommunicationDirection", .get k!"communicationDirection") /- 73 -/,
      (k!"setCommunicationDirection", .set k!"communicationDirection" false) /- 76 -/,
      (k!"getDataElementIRef", .get k!"dataElementIRef") /- 80 -/,
      (k!"setDataElementIRef", .set k!"dataElementIRef" false) /- 83 -/,
      (k!"getSenderToSignalTextTableMapping", .get k!"senderToSignalTextTableMapping") /- 87 -/,
      (k!"setSenderToSignalTextTableMapping", .set k!"senderToSignalTextTableMapping" false) /- 90 -/,
      (k!"getSignalToReceiverTextTableMapping", .get k!"signalToReceiverTextTableMapping") /- 94 -/,
      (k!"setSignalToReceiverTextTableMapping", .set k!"signalToReceiverTextTableMapping" false) /- 97 -/,
      (k!"getSystemSignalRef", .get k!"systemSignalRef") /- 101 -/,
      (k!"setSystemSignalRef", .set k!"systemSignalRef" false) /- 104 -/]⟩
    .nil)
   -- M2/AUTOSARTemplates/SWComponentTemplate/Components/__init__.py:775
   k!"SensorActuatorSwComponentType" ⟨false, some (2, [.sup 2, .field k!"sensorActuatorRef" .none]),
     [(k!"getSensorActuatorRef", .get k!"sensorActuatorRef") /- 792 -/,
      (k!"setSensorActuatorRef", .set k!"sensorActuatorRef" true) /- 803 -/]⟩
   (.node .nil
    -- M2/AUTOSARTemplates/CommonStructure/SignalServiceTranslation.py:221
    k!"SignalServiceTranslationProps" ⟨false, some (2, [.sup 2, .field k!"controlConsumedEventGroupRefs" .nil, .field k!"controlPncRefs" .nil, .field k!"controlProvidedEventGroupRefs" .nil, .field k!"serviceControl" .none, .field k!"signalServiceTranslationEventProps" .nil]),
     [(k!"addControlConsumedEventGroupRef", .add k!"controlConsumedEventGroupRefs" true false) /- 260 -/,
      (k!"getControlConsumedEventGroupRefs", .get k!"controlConsumedEventGroupRefs") /- 269 -/,
      (k!"addControlPncRef", .add k!"controlPncRefs" true false) /- 275 -/,
      (k!"getControlPncRefs", .get k!"controlPncRefs") /- 284 -/,
      (k!"addControlProvidedEventGroupRef", .add k!"controlProvidedEventGroupRefs" true false) /- 290 -/,
      (k!"getControlProvidedEventGroupRefs", .get k!"controlProvidedEventGroupRefs") /- 299 -/,
      (k!"getServiceControl", .get k!"serviceControl") /- 305 -/,
      (k!"setServiceControl", .set k!"serviceControl" true) /- 311 -/,
      (k!"createSignalServiceTranslationEventProps", .other) /- 320 -/,
      (k!"getSignalServiceTranslationEventProps", .get k!"signalServiceTranslationEventProps") /- 329 -/]⟩
    .nil))))

-- M2/AUTOSARTemplates/CommonStructure/ServiceNeeds.py:2706
def accTable106 : Bst (ClassAcc) :=
 .node accTable104 k!"DiagnosticUploadDownloadNeeds" ⟨false, some (2, [.sup 2]),
     []⟩ accTable105

-- M2/AUTOSARTemplates/SystemTemplate/Fibex/Fibex4Ethernet/EthernetTopology.py:209
def accTable107 : Bst (ClassAcc) :=
 .node accTable103 k!"EthernetPriorityRegeneration" ⟨false, some (2, [.sup 2, .field k!"ingressPriority" .none, .field k!"regeneratedPriority" .none]),
     [(k!"getIngressPriority", .get k!"ingressPriority") /- 229 -/,
      (k!"setIngressPriority", .set k!"ingressPriority" true) /- 232 -/,
      (k!"getRegeneratedPriority", .get k!"regeneratedPriority") /- 237 -/,
      (k!"setRegeneratedPriority", .set k!"regeneratedPriority" true) /- 240 -/]⟩ accTable106

-- M2/AUTOSARTemplates/SystemTemplate/DoIp.py:42
def accTable108 : Bst (ClassAcc) :=
 .node accTable100 k!"DoIpLogicTesterAddressProps" ⟨false, some (2, [.sup 2, .field k!"doIpTesterRoutingActivationRef" .none]),
     [(k!"getDoIpTesterRoutingActivationRef", .get k!"doIpTesterRoutingActivationRef") /- 59 -/,
      (k!"setDoIpTesterRoutingActivationRef", .set k!"doIpTesterRoutingActivationRef" true) /- 62 -/]⟩ accTable107

def accTable109 : Bst (ClassAcc) :=
 (.node (.node (.node (.node (.node .nil
     -- M2/AUTOSARTemplates/CommonStructure/ImplementationDataTypes.py:121
     k!"AbstractImplementationDataType" ⟨true, some (2, [.guard k!"AbstractImplementationDataType", .sup 2]),
     []⟩
     .nil)
    -- M2/AUTOSARTemplates/BswModuleTemplate/BswBehavior/__init__.py:86
    k!"BswAsynchronousServerCallPoint" ⟨false, some (2, [.sup 2, .field k!"calledEntryRef" .none]),
     [(k!"getCalledEntryRef", .get k!"calledEntryRef") /- 110 -/,
      (k!"setCalledEntryRef", .set k!"calledEntryRef" true) /- 119 -/]⟩
    .nil)
   -- M2/AUTOSARTemplates/BswModuleTemplate/BswBehavior/__init__.py:3290
   k!"BswTriggerDirectImplementation" ⟨false, some (0, [.sup 0, .field k!"cat2Isr" .none, .field k!"masteredTriggerRef" .none, .field k!"task" .none]),
     [(k!"getCat2Isr", .get k!"cat2Isr") /- 3335 -/,
      (k!"setCat2Isr", .set k!"cat2Isr" true) /- 3342 -/,
      (k!"getMasteredTriggerRef", .get k!"masteredTriggerRef") /- 3351 -/,
      (k!"setMasteredTriggerRef", .set k!"masteredTriggerRef" true) /- 3358 -/,
      (k!"getTask", .get k!"task") /- 3367 -/,
      (k!"setTask", .set k!"task" true) /- 3374 -/]⟩
   (.node .nil
    -- M2/AUTOSARTemplates/SystemTemplate/Transformer/__init__.py:988
    k!"CSTransformerErrorReactionEnum" ⟨false, some (0, [.sup 1]),
     []⟩
    .nil))
  -- M2/AUTOSARTemplates/SWComponentTemplate/Communication.py:156
  k!"CompositeNetworkRepresentation" ⟨false, some (0, [.sup 0, .field k!"leafElementIRef" .none, .field k!"networkRepresentation" .none]),
     [(k!"getLeafElementIRef", .get k!"leafElementIRef") /- 179 -/,
      (k!"setLeafElementIRef", .set k!"leafElementIRef" true) /- 190 -/,
      (k!"getNetworkRepresentation", .get k!"networkRepresentation") /- 207 -/,
      (k!"setNetworkRepresentation", .other) /- 218 -/]⟩
  (.node (.node .nil
    -- M2/AUTOSARTemplates/CommonStructure/Timing/TimingConstraint/EventTriggeringConstraint.py:170
    k!"ConcretePatternEventTriggering" ⟨false, some (2, [.sup 2]),
     []⟩
    .nil)
   -- M2/AUTOSARTemplates/CommonStructure/ServiceNeeds.py:2353
   k!"DiagnosticEnableConditionNeeds" ⟨false, some (2, [.sup 2, .field k!"initialStatus" .none]),
     [(k!"getInitialStatus", .get k!"initialStatus") /- 2378 -/,
      (k!"setInitialStatus", .set k!"initialStatus" true) /- 2387 -/]⟩
   (.node .nil
    -- M2/AUTOSARTemplates/CommonStructure/Timing/TimingConstraint/ExecutionOrderConstraint.py:22
    k!"EOCExecutableEntityRefAbstract" ⟨true, some (2, [.guard k!"EOCExecutableEntityRefAbstract", .sup 2]),
     []⟩
    .nil)))
 -- M2/AUTOSARTemplates/ECUCParameterDefTemplate.py:430
 k!"EcucAbstractConfigurationClass" ⟨true, some (0, [.guard k!"EcucAbstractConfigurationClass", .sup 0, .field k!"configClass" .none, .field k!"configVariant" .none]),
     [(k!"getConfigClass", .get k!"configClass") /- 455 -/,
      (k!"setConfigClass", .set k!"configClass" true) /- 461 -/,
      (k!"getConfigVariant", .get k!"configVariant") /- 470 -/,
      (k!"setConfigVariant", .set k!"configVariant" true) /- 476 -/]⟩
 (.node (.node (.node .nil
    -- M2/AUTOSARTemplates/ECUCParameterDefTemplate.py:2206
    k!"EcucParameterDerivationFormula" ⟨false, some (0, [.sup 0, .field k!"ecucQueryRef" .none, .field k!"ecucQueryStringRef" .none]),
     [(k!"getEcucQueryRef", .get k!"ecucQueryRef") /- 2230 -/,
      (k!"setEcucQueryRef", .set k!"ecucQueryRef" true) /- 2236 -/,
      (k!"getEcucQueryStringRef", .get k!"ecucQueryStringRef") /- 2245 -/,
      (k!"setEcucQueryStringRef", .set k!"ecucQueryStringRef" true) /- 2251 -/]⟩
    .nil)
   -- M2/AUTOSARTemplates/SystemTemplate/Fibex/Fibex4Ethernet/EthernetTopology.py:698
   k!"EthernetCommunicationConnector" ⟨false, some (2, [.sup 2, .field k!"ethIpPropsRef" .none, .field k!"maximumTransmissionUnit" .none, .field k!"neighborCacheSize" .none, .field k!"networkEndpointRefs" .nil, .field k!"pathMtuEnabled" .none, .field k!"pathMtuTimeout" .none]),
     [(k!"getEthIpPropsRef", .get k!"ethIpPropsRef") /- 730 -/,
      (k!"setEthIpPropsRef", .set k!"ethIpPropsRef" false) /- 733 -/,
      (k!"getMaximumTransmissionUnit", .get k!"maximumTransmissionUnit") /- 737 -/,
      (k!"setMaximumTransmissionUnit", .set k!"maximumTransmissionUnit" false) /- 740 -/,
      (k!"getNeighborCacheSize", .get k!"neighborCacheSize") /- 744 -/,
      (k!"setNeighborCacheSize", .set k!"neighborCacheSize" false) /- 747 -/,
      (k!"getNetworkEndpointRefs", .get k!"networkEndpointRefs") /- 751 -/,
      (k!"addNetworkEndpointRef", .add k!"networkEndpointRefs" true false) /- 754 -/,
      (k!"getPathMtuEnabled", .get k!"pathMtuEnabled") /- 759 -/,
      (k!"setPathMtuEnabled", .set k!"pathMtuEnabled" false) /- 762 -/,
      (k!"getPathMtuTimeout", .get k!"pathMtuTimeout") /- 766 -/,
      (k!"setPathMtuTimeout", .set k!"pathMtuTimeout" false) /- 769 -/]⟩
   (.node .nil
    -- M2/AUTOSARTemplates/SystemTemplate/Fibex/Fibex4Flexray/FlexrayTopology.py:10
    k!"FlexrayCommunicationController" ⟨false, some (2, [.sup 2, .field k!"acceptedStartupRange" .none, .field k!"allowHaltDueToClock" .none, .field k!"allowPassiveToActive" .none, .field k!"clusterDriftDamping" .none, .field k!"decodingCorrection" .none, .field k!"delayCompensationA" .none, .field k!"delayCompensationB" .none, .field k!"externalSync" .none, .field k!"externOffsetCorrection" .none, .field k!"externRateCorrection" .none, .field k!"fallBackInternal" .none, .field k!"flexrayFifos" .nil, .field k!"keySlotID" .none, .field k!"keySlotOnlyEnabled" .none, .field k!"keySlotUsedForStartUp" .none, .field k!"keySlotUsedForSync" .none, .field k!"latestTX" .none, .field k!"listenTimeout" .none, .field k!"macroInitialOffsetA" .none, .field k!"macroInitialOffsetB" .none, .field k!"maximumDynamicPayloadLength" .none, .field k!"microInitialOffsetA" .none, .field k!"microInitialOffsetB" .none, .field k!"microPerCycle" .none, .field k!"microtickDuration" .none, .field k!"nmVectorEarlyUpdate" .none, .field k!"offsetCorrectionOut" .none, .field k!"rateCorrectionOut" .none, .field k!"samplesPerMicrotick" .none, .field k!"secondKeySlotId" .none, .field k!"twoKeySlotMode" .none, .field k!"wakeUpPattern" .none]),
     [(k!"getAcceptedStartupRange", .get k!"acceptedStartupRange") /- 182 -/,
      (k!"setAcceptedStartupRange", .set k!"acceptedStartupRange" true) /- 186 -/,
      (k!"getAllowHaltDueToClock", .get k!"allowHaltDueToClock") /- 193 -/,
      (k!"setAllowHaltDueToClock", .set k!"allowHaltDueToClock" true) /- 197 -/,
      (k!"getAllowPassiveToActive", .get k!"allowPassiveToActive") /- 204 -/,
      (k!"setAllowPassiveToActive", .set k!"allowPassiveToActive" true) /- 208 -/,
      (k!"getClusterDriftDamping", .get k!"clusterDriftDamping") /- 215 -/,
      (k!"setClusterDriftDamping", .set k!"clusterDriftDamping" true) /- 219 -/,
      (k!"getDecodingCorrection", .get k!"decodingCorrection") /- 226 -/,
      (k!"setDecodingCorrection", .set k!"decodingCorrection" true) /- 230 -/,
      (k!"getDelayCompensationA", .get k!"delayCompensationA") /- 237 -/,
      (k!"setDelayCompensationA", .set k!"delayCompensationA" true) /- 241 -/,
      (k!"getDelayCompensationB", .get k!"delayCompensationB") /- 248 -/,
      (k!"setDelayCompensationB", .set k!"delayCompensationB" true) /- 252 -/,
      (k!"getExternalSync", .get k!"externalSync") /- 259 -/,
      (k!"setExternalSync", .set k!"externalSync" true) /- 263 -/,
      (k!"getExternOffsetCorrection", .get k!"externOffsetCorrection") /- 270 -/,
      (k!"setExternOffsetCorrection", .set k!"externOffsetCorrection" true) /- 274 -/,
      (k!"getExternRateCorrection", .get k!"externRateCorrection") /- 281 -/,
      (k!"setExternRateCorrection", .set k!"externRateCorrection" true) /- 285 -/,
      (k!"getFallBackInternal", .get k!"fallBackInternal") /- 292 -/,
      (k!"setFallBackInternal", .set k!"fallBackInternal" true) /- 296 -/,
      (k!"createFlexrayFifo", .other) /- 303 -/,
      (k!"getFlexrayFifos", .get k!"flexrayFifos") /- 309 -/,
      (k!"getKeySlotID", .get k!"keySlotID") /- 313 -/,
      (k!"setKeySlotID", .set k!"keySlotID" true) /- 317 -/,
      (k!"getKeySlotOnlyEnabled", .get k!"keySlotOnlyEnabled") /- 324 -/,
      (k!"setKeySlotOnlyEnabled", .set k!"keySlotOnlyEnabled" true) /- 328 -/,
      (k!"getKeySlotUsedForStartUp", .get k!"keySlotUsedForStartUp") /- 335 -/,
      (k!"setKeySlotUsedForStartUp", .set k!"keySlotUsedForStartUp" true) /- 339 -/,
      (k!"getKeySlotUsedForSync", .get k!"keySlotUsedForSync") /- 346 -/,
      (k!"setKeySlotUsedForSync", .set k!"keySlotUsedForSync" true) /- 350 -/,
      (k!"getLatestTX", .get k!"latestTX") /- 357 -/,
      (k!"setLatestTX", .set k!"latestTX" true) /- 361 -/,
      (k!"getListenTimeout", .get k!"listenTimeout") /- 368 -/,
      (k!"setListenTimeout", .set k!"listenTimeout" true) /- 372 -/,
      (k!"getMacroInitialOffsetA", .get k!"macroInitialOffsetA") /- 379 -/,
      (k!"setMacroInitialOffsetA", .set k!"macroInitialOffsetA" true) /- 383 -/,
      (k!"getMacroInitialOffsetB", .get k!"macroInitialOffsetB") /- 390 -/,
      (k!"setMacroInitialOffsetB", .set k!"macroInitialOffsetB" true) /- 394 -/,
      (k!"getMaximumDynamicPayloadLength", .get k!"maximumDynamicPayloadLength") /- 401 -/,
      (k!"setMaximumDynamicPayloadLength", .set k!"maximumDynamicPayloadLength" true) /- 405 -/,
      (k!"getMicroInitialOffsetA", .get k!"microInitialOffsetA") /- 412 -/,
      (k!"setMicroInitialOffsetA", .set k!"microInitialOffsetA" true) /- 416 -/,
      (k!"getMicroInitialOffsetB", .get k!"microInitialOffsetB") /- 423 -/,
      (k!"setMicroInitialOffsetB", .set k!"microInitialOffsetB" true) /- 427 -/,
      (k!"getMicroPerCycle", .get k!"microPerCycle") /- 434 -/,
      (k!"setMicroPerCycle", .set k!"microPerCycle" true) /- 438 -/,
      (k!"getMicrotickDuration", .get k!"microtickDuration") /- 445 -/,
      (k!"setMicrotickDuration", .set k!"microtickDuration" true) /- 449 -/,
      (k!"getNmVectorEarlyUpdate", .get k!"nmVectorEarlyUpdate") /- 456 -/,
      (k!"setNmVectorEarlyUpdate", .set k!"nmVectorEarlyUpdate" true) /- 460 -/,
      (k!"getOffsetCorrectionOut", .get k!"offsetCorrectionOut") /- 467 -/,
      (k!"setOffsetCorrectionOut", .set k!"offsetCorrectionOut" true) /- 471 -/,
      (k!"getRateCorrectionOut", .get k!"rateCorrectionOut") /- 478 -/,
      (k!"setRateCorrectionOut", .set k!"rateCorrectionOut" true) /- 482 -/,
      (k!"getSamplesPerMicrotick", .get k!"samplesPerMicrotick") /- 489 -/,
      (k!"setSamplesPerMicrotick", .set k!"samplesPerMicrotick" true) /- 493 -/,
      (k!"getSecondKeySlotId", .get k!"secondKeySlotId") /- 500 -/,
      (k!"setSecondKeySlotId", .set k!"secondKeySlotId" true) /- 504 -/,
      (k!"getTwoKeySlotMode", .get k!"twoKeySlotMode") /- 511 -/,
      (k!"setTwoKeySlotMode", .set k!"twoKeySlotMode" true) /- 515 -/,
      (k!"getWakeUpPattern", .get k!"wakeUpPattern") /- 522 -/,
      (k!"setWakeUpPattern", .set k!"wakeUpPattern" true) /- 526 -/]⟩
    .nil))
  -- M2/MSR/Documentation/TextModel/MultilanguageData.py:37
  k!"MultiLanguageOverviewParagraph" ⟨false, some (0, [.sup 0, .field k!"l2" .nil]),
     [(k!"addL2", .add k!"l2" true false) /- 56 -/,
      (k!"getL2s", .get k!"l2") /- 65 -/]⟩
  (.node (.node .nil
    -- M2/AUTOSARTemplates/CommonStructure/Constants/__init__.py:780
    k!"NotAvailableValueSpecification" ⟨false, some (0, [.sup 0, .field k!"reason" .none]),
     [(k!"getReason", .get k!"reason") /- 794 -/,
      (k!"setReason", .set k!"reason" false) /- 797 -/]⟩
    .nil)
   -- M2/AUTOSARTemplates/GenericStructure/VariantHandling/__init__.py:65
   k!"PostBuildVariantCriterionValue" ⟨false, some (0, [.sup 0, .field k!"annotations" .nil, .field k!"value" .none, .field k!"variantCriterionRef" .none]),
     [(k!"getAnnotations", .get k!"annotations") /- 107 -/,
      (k!"addAnnotation", .add k!"annotations" true false) /- 113 -/,
      (k!"getValue", .get k!"value") /- 122 -/,
      (k!"setValue", .set k!"value" true) /- 128 -/,
      (k!"getVariantCriterionRef", .get k!"variantCriterionRef") /- 137 -/,
      (k!"setVariantCriterionRef", .set k!"variantCriterionRef" true) /- 143 -/]⟩
   (.node .nil
    -- M2/AUTOSARTemplates/SWComponentTemplate/SwcInternalBehavior/AccessCount.py:14
    k!"RteApiReturnValueProvisionEnum" ⟨false, some (0, [.sup 1]),
     []⟩
    .nil))))

def accTable110 : Bst (ClassAcc) :=
 (.node (.node (.node (.node (.node .nil
     -- M2/AUTOSARTemplates/SystemTemplate/Fibex/Fibex4Ethernet/EthernetCommunication.py:146
     k!"SocketConnectionIpduIdentifier" ⟨false, some (0, [.sup 0, .field k!"headerId" .none, .field k!"pduCollectionPduTimeout" .none, .field k!"pduCollectionSemantics" .none, .field k!"pduCollectionTrigger" .none, .field k!"PduRef" .none, .field k!"pduTriggeringRef" .none, .field k!"routingGroupRefs" .nil]),
     [(k!"getHeaderId", .get k!"headerId") /- 181 -/,
      (k!"setHeaderId", .set k!"headerId" false) /- 184 -/,
      (k!"getPduCollectionPduTimeout", .get k!"pduCollectionPduTimeout") /- 188 -/,
      (k!"setPduCollectionPduTimeout", .set k!"pduCollectionPduTimeout" false) /- 191 -/,
      (k!"getPduCollectionSemantics", .get k!"pduCollectionSemantics") /- 195 -/,
      (k!"setPduCollectionSemantics", .set k!"pduCollectionSemantics" false) /- 198 -/,
      (k!"getPduCollectionTrigger", .get k!"pduCollectionTrigger") /- 202 -/,
      (k!"setPduCollectionTrigger", .set k!"pduCollectionTrigger" false) /- 205 -/,
      (k!"getPduRef", .get k!"PduRef") /- 209 -/,
      (k!"setPduRef", .set k!"PduRef" false) /- 212 -/,
      (k!"getPduTriggeringRef", .get k!"pduTriggeringRef") /- 216 -/,
      (k!"setPduTriggeringRef", .set k!"pduTriggeringRef" false) /- 219 -/,
      (k!"getRoutingGroupRefs", .get k!"routingGroupRefs") /- 223 -/,
      (k!"setRoutingGroupRefs", .set k!"routingGroupRefs" false) /- 226 -/]⟩
     .nil)
    -- M2/AUTOSARTemplates/CommonStructure/Timing/TimingConstraint/SynchronizationPointConstraint.py:17
    k!"SynchronizationPointConstraint" ⟨false, some (2, [.sup 2, .field k!"synchronization_point" .none]),
     [(k!"getSynchronizationPoint", .get k!"synchronization_point") /- 42 -/,
      (k!"setSynchronizationPoint", .set k!"synchronization_point" false) /- 51 -/]⟩
    .nil)
   -- M2/AUTOSARTemplates/SWComponentTemplate/Communication.py:238
   k!"TransmissionModeDefinitionEnum" ⟨false, some (0, [.sup 1]),
     []⟩
   (.node .nil
    -- M2/AUTOSARTemplates/SystemTemplate/Fibex/Fibex4Ethernet/ServiceInstances.py:13
    k!"TransportProtocolConfiguration" ⟨true, some (0, [.guard k!"TransportProtocolConfiguration", .sup 0]),
     []⟩
    .nil))
  -- M2/AUTOSARTemplates/CommonStructure/MeasurementCalibrationSupport/__init__.py:154
  k!"VariableAccessInEcuInstanceRef" ⟨false, some (0, [.sup 0, .field k!"baseRef" .none, .field k!"contextRootCompositionRef" .none, .field k!"contextAtomicComponentRef" .none, .field k!"targetVariableAccessRef" .none]),
     [(k!"getBaseRef", .get k!"baseRef") /- 191 -/,
      (k!"setBaseRef", .set k!"baseRef" true) /- 200 -/,
      (k!"getContextRootCompositionRef", .get k!"contextRootCompositionRef") /- 215 -/,
      (k!"setContextRootCompositionRef", .set k!"contextRootCompositionRef" true) /- 224 -/,
      (k!"getContextAtomicComponentRef", .get k!"contextAtomicComponentRef") /- 239 -/,
      (k!"setContextAtomicComponentRef", .set k!"contextAtomicComponentRef" true) /- 248 -/,
      (k!"getTargetVariableAccessRef", .get k!"targetVariableAccessRef") /- 263 -/,
      (k!"setTargetVariableAccessRef", .set k!"targetVariableAccessRef" true) /- 272 -/]⟩
  (.node (.node .nil
    -- M2/AUTOSARTemplates/SWComponentTemplate/Components/InstanceRefs.py:379
    k!"VariableInAtomicSwcInstanceRef" ⟨true, some (0, [.guard k!"VariableInAtomicSwcInstanceRef", .sup 0, .field k!"abstractTargetDataElementRef" .none, .field k!"baseRef" .none, .field k!"contextPortRef" .none]),
     []⟩
    .nil)
   -- M2/AUTOSARTemplates/GenericStructure/VariantHandling/AttributeValueVariationPoints/__init__.py:133
   k!"AbstractNumericalVariationPoint" ⟨false, some (0, [.guard k!"AbstractNumericalVariationPoint", .sup 0]),
     []⟩
   (.node .nil
    -- M2/AUTOSARTemplates/BswModuleTemplate/BswBehavior/__init__.py:1748
    k!"BswExternalTriggerOccurredEvent" ⟨false, some (2, [.sup 2, .field k!"triggerRef" .none]),
     [(k!"getTriggerRef", .get k!"triggerRef") /- 1772 -/,
      (k!"setTriggerRef", .set k!"triggerRef" true) /- 1781 -/]⟩
    .nil)))
 -- M2/AUTOSARTemplates/BswModuleTemplate/BswBehavior/__init__.py:1386
 k!"BswInternalTriggerOccurredEvent" ⟨false, some (2, [.sup 2, .field k!"eventSourceRef" .none]),
     [(k!"getEventSourceRef", .get k!"eventSourceRef") /- 1410 -/,
      (k!"setEventSourceRef", .set k!"eventSourceRef" false) /- 1419 -/]⟩
 (.node (.node (.node .nil
    -- M2/AUTOSARTemplates/CommonStructure/Constants/__init__.py:100
    k!"CompositeRuleBasedValueArgument" ⟨false, some (0, [.guard k!"CompositeRuleBasedValueArgument", .sup 0]),
     []⟩
    .nil)
   -- M2/AUTOSARTemplates/CommonStructure/Constants/__init__.py:759
   k!"ConstantSpecificationMappingSet" ⟨false, some (0, [.sup 0, .field k!"mappings" .nil]),
     [(k!"addMapping", .add k!"mappings" false false) /- 773 -/,
      (k!"getMappings", .get k!"mappings") /- 776 -/]⟩
   (.node .nil
    -- M2/AUTOSARTemplates/SystemTemplate/Transformer/__init__.py:1130
    k!"DataPrototypeInPortInterfaceRef" ⟨false, some (0, [.sup 0, .field k!"dataPrototypeInClientServerInterface" .none]),
     [(k!"getDataPrototypeInClientServerInterface", .get k!"dataPrototypeInClientServerInterface") /- 1149 -/,
      (k!"setDataPrototypeInClientServerInterface", .set k!"dataPrototypeInClientServerInterface" true) /- 1155 -/]⟩
    .nil))
  -- M2/AUTOSARTemplates/CommonStructure/ServiceNeeds.py:2559
  k!"DiagnosticMonitorUpdateKindEnum" ⟨false, some (0, [.sup 1]),
     []⟩
  (.node (.node .nil
    -- M2/AUTOSARTemplates/CommonStructure/ServiceNeeds.py:2657
    k!"DiagnosticStorageConditionNeeds" ⟨false, some (2, [.sup 2, .field k!"initialStatus" .none]),
     [(k!"getInitialStatus", .get k!"initialStatus") /- 2682 -/,
      (k!"setInitialStatus", .set k!"initialStatus" true) /- 2691 -/]⟩
    .nil)
   -- M2/AUTOSARTemplates/SystemTemplate/Fibex/Fibex4Ethernet/EthernetTopology.py:600
   k!"EthernetCommunicationController" ⟨false, some (2, [.sup 2, .field k!"canXlConfigRef" .none, .field k!"couplingPorts" .nil, .field k!"macLayerType" .none, .field k!"macUnicastAddress" .none, .field k!"maximumReceiveBufferLength" .none, .field k!"maximumTransmitBufferLength" .none, .field k!"slaveActAsPassiveCommunicationSlave" .none, .field k!"slaveQualifiedUnexpectedLinkDownTime" .none]),
     [(k!"getCanXlConfigRef", .get k!"canXlConfigRef") /- 638 -/,
      (k!"setCanXlConfigRef", .set k!"canXlConfigRef" false) /- 641 -/,
      (k!"getCouplingPorts", .get k!"couplingPorts") /- 645 -/,
      (k!"createCouplingPort", .other) /- 648 -/,
      (k!"getMacLayerType", .get k!"macLayerType") /- 655 -/,
      (k!"setMacLayerType", .set k!"macLayerType" false) /- 658 -/,
      (k!"getMacUnicastAddress", .get k!"macUnicastAddress") /- 662 -/,
      (k!"setMacUnicastAddress", .set k!"macUnicastAddress" false) /- 665 -/,
      (k!"getMaximumReceiveBufferLength", .get k!"maximumReceiveBufferLength") /- 669 -/,
      (k!"setMaximumReceiveBufferLength", .set k!"maximumReceiveBufferLength" false) /- 672 -/,
      (k!"getMaximumTransmitBufferLength", .get k!"maximumTransmitBufferLength") /- 676 -/,
      (k!"setMaximumTransmitBufferLength", .set k!"maximumTransmitBufferLength" false) /- 679 -/,
      (k!"getSlaveActAsPassiveCommunicationSlave", .get k!"slaveActAsPassiveCommunicationSlave") /- 683 -/,
      (k!"setSlaveActAsPassiveCommunicationSlave", .set k!"slaveActAsPassiveCommunicationSlave" false) /- 686 -/,
      (k!"getSlaveQualifiedUnexpectedLinkDownTime", .get k!"slaveQualifiedUnexpectedLinkDownTime") /- 690 -/,
      (k!"setSlaveQualifiedUnexpectedLinkDownTime", .set k!"slaveQualifiedUnexpectedLinkDownTime" false) /- 693 -/]⟩
   (.node .nil
    -- M2/AUTOSARTemplates/SWComponentTemplate/SwcInternalBehavior/ModeDeclarationGroup.py:118
    k!"IncludedModeDeclarationGroupSet" ⟨false, some (0, [.sup 0, .field k!"mode_declaration_group_refs" .nil, .field k!"prefix" .none]),
     [(k!"addModeDeclarationGroupRef", .add k!"mode_declaration_group_refs" false false) /- 137 -/,
      (k!"getModeDeclarationGroupRefs", .get k!"mode_declaration_group_refs") /- 150 -/,
      (k!"setPrefix", .set k!"prefix" false) /- 159 -/,
      (k!"getPrefix", .get k!"prefix") /- 172 -/]⟩
    .nil))))

-- M2/AUTOSARTemplates/CommonStructure/ServiceNeeds.py:590
def accTable111 : Bst (ClassAcc) :=
 .node accTable109 k!"ServiceDiagnosticRelevanceEnum" ⟨false, some (0, [.sup 1]),
     []⟩ accTable110

def accTable112 : Bst (ClassAcc) :=
 (.node (.node (.node (.node (.node .nil
     -- M2/AUTOSARTemplates/SWComponentTemplate/Components/InstanceRefs.py:14
     k!"ModeGroupInAtomicSwcInstanceRef" ⟨true, some (0, [.guard k!"ModeGroupInAtomicSwcInstanceRef", .sup 0, .field k!"baseRef" .none, .field k!"contextPortRef" .none, .field k!"targetRef" .none]),
     [(k!"getBaseRef", .get k!"baseRef") /- 40 -/,
      (k!"setBaseRef", .set k!"baseRef" false) /- 43 -/,
      (k!"getContextPortRef", .get k!"contextPortRef") /- 47 -/,
      (k!"setContextPortRef", .set k!"contextPortRef" false) /- 50 -/,
      (k!"getTargetRef", .get k!"targetRef") /- 54 -/,
      (k!"setTargetRef", .set k!"targetRef" false) /- 57 -/]⟩
     .nil)
    -- M2/AUTOSARTemplates/CommonStructure/ServiceNeeds.py:226
    k!"NvBlockNeedsWritingPriorityEnum" ⟨false, some (0, [.sup 1]),
     []⟩
    .nil)
   -- M2/AUTOSARTemplates/SWComponentTemplate/Composition/InstanceRefs.py:129
   k!"OperationInAtomicSwcInstanceRef" ⟨true, some (0, [.guard k!"OperationInAtomicSwcInstanceRef", .sup 0, .field k!"baseRef" .none, .field k!"contextPortRef" .none, .field k!"targetOperationRef" .none]),
     [(k!"getBaseRef", .get k!"baseRef") /- 154 -/,
      (k!"setBaseRef", .set k!"baseRef" false) /- 157 -/,
      (k!"getContextPortRef", .get k!"contextPortRef") /- 161 -/,
      (k!"setContextPortRef", .set k!"contextPortRef" false) /- 164 -/,
      (k!"getTargetOperationRef", .get k!"targetOperationRef") /- 168 -/,
      (k!"setTargetOperationRef", .set k!"targetOperationRef" false) /- 171 -/]⟩
   (.node .nil
    -- M2/AUTOSARTemplates/CommonStructure/StandardizationTemplate/BlueprintDedicated/PortPrototypeBlueprint.py:22
    k!"PortPrototypeBlueprintInitValue" ⟨false, some (0, [.sup 0, .field k!"dataPrototypeRef" .none, .field k!"value" .none]),
     [(k!"getDataPrototypeRef", .get k!"dataPrototypeRef") /- 42 -/,
      (k!"setDataPrototypeRef", .set k!"dataPrototypeRef" true) /- 51 -/,
      (k!"getValue", .get k!"value") /- 65 -/,
      (k!"setValue", .set k!"value" true) /- 74 -/]⟩
    .nil))
  -- M2/AUTOSARTemplates/SWComponentTemplate/Components/InstanceRefs.py:399
  k!"RVariableInAtomicSwcInstanceRef" ⟨false, some (0, [.sup 0, .field k!"contextRPortRef" .none, .field k!"targetDataElementRef" .none]),
     [(k!"getContextRPortRef", .get k!"contextRPortRef") /- 418 -/,
      (k!"setContextRPortRef", .set k!"contextRPortRef" false) /- 421 -/,
      (k!"getTargetDataElementRef", .get k!"targetDataElementRef") /- 425 -/,
      (k!"setTargetDataElementRef", .set k!"targetDataElementRef" false) /- 428 -/]⟩
  (.node (.node .nil
    -- M2/AUTOSARTemplates/GenericStructure/GeneralTemplateClasses/PrimitiveTypes.py:390
    k!"SectionInitializationPolicyType" ⟨false, some (0, [.sup 0]),
     []⟩
    .nil)
   -- M2/AUTOSARTemplates/CommonStructure/ServiceNeeds.py:3946
   k!"SecureOnBoardCommunicationNeeds" ⟨false, some (2, [.sup 2, .field k!"verificationStatusIndicationMode" .none]),
     [(k!"getVerificationStatusIndicationMode", .get k!"verificationStatusIndicationMode") /- 3964 -/,
      (k!"setVerificationStatusIndicationMode", .set k!"verificationStatusIndicationMode" true) /- 3973 -/]⟩
   (.node .nil
    -- M2/AUTOSARTemplates/CommonStructure/ServiceNeeds.py:4124
    k!"SupervisedEntityCheckpointNeeds" ⟨false, some (2, [.sup 2]),
     []⟩
    .nil)))
 -- M2/AUTOSARTemplates/CommonStructure/Timing/TimingConstraint/SynchronizationTiming.py:63
 k!"SynchronizationTimingConstraint" ⟨false, some (2, [.sup 2, .field k!"synchronization_type" .none, .field k!"event_occurrence_kind" .none]),
     [(k!"getSynchronizationType", .get k!"synchronization_type") /- 92 -/,
      (k!"setSynchronizationType", .set k!"synchronization_type" false) /- 101 -/,
      (k!"getEventOccurrenceKind", .get k!"event_occurrence_kind") /- 114 -/,
      (k!"setEventOccurrenceKind", .set k!"event_occurrence_kind" false) /- 123 -/]⟩
 (.node (.node (.node .nil
    -- M2/AUTOSARTemplates/SystemTemplate/Transformer/__init__.py:1430
    k!"DataPrototypeTransformationProps" ⟨false, some (0, [.sup 0, .field k!"dataPrototypeInPortInterfaceRef" .none, .field k!"networkRepresentationProps" .none, .field k!"transformationProps" .none]),
     [(k!"getDataPrototypeInPortInterfaceRef", .get k!"dataPrototypeInPortInterfaceRef") /- 1459 -/,
      (k!"setDataPrototypeInPortInterfaceRef", .set k!"dataPrototypeInPortInterfaceRef" true) /- 1465 -/,
      (k!"getNetworkRepresentationProps", .get k!"networkRepresentationProps") /- 1474 -/,
      (k!"setNetworkRepresentationProps", .set k!"networkRepresentationProps" true) /- 1480 -/,
      (k!"getTransformationProps", .get k!"transformationProps") /- 1489 -/,
      (k!"setTransformationProps", .set k!"transformationProps" true) /- 1495 -/]⟩
    .nil)
   -- M2/AUTOSARTemplates/CommonStructure/ServiceNeeds.py:1385
   k!"DiagEventDebounceMonitorInternal" ⟨false, some (2, [.sup 2]),
     []⟩
   (.node .nil
    -- M2/AUTOSARTemplates/CommonStructure/ServiceNeeds.py:1612
    k!"DtcStatusChangeNotificationNeeds" ⟨false, some (2, [.sup 2, .field k!"dtcFormatType" .none, .field k!"notificationTime" .none]),
     [(k!"getDtcFormatType", .get k!"dtcFormatType") /- 1641 -/,
      (k!"setDtcFormatType", .set k!"dtcFormatType" true) /- 1650 -/,
      (k!"getNotificationTime", .get k!"notificationTime") /- 1665 -/,
      (k!"setNotificationTime", .set k!"notificationTime" true) /- 1674 -/]⟩
    .nil))
  -- M2/AUTOSARTemplates/ECUCParameterDefTemplate.py:1004
  k!"EcucAbstractExternalReferenceDef" ⟨true, some (2, [.guard k!"EcucAbstractExternalReferenceDef", .sup 2]),
     []⟩
  (.node (.node .nil
    -- M2/AUTOSARTemplates/ECUCParameterDefTemplate.py:967
    k!"EcucAbstractInternalReferenceDef" ⟨true, some (2, [.guard k!"EcucAbstractInternalReferenceDef", .sup 2, .field k!"requiresSymbolicNameValue" .none]),
     [(k!"getRequiresSymbolicNameValue", .get k!"requiresSymbolicNameValue") /- 988 -/,
      (k!"setRequiresSymbolicNameValue", .set k!"requiresSymbolicNameValue" true) /- 994 -/]⟩
    .nil)
   -- M2/AUTOSARTemplates/CommonStructure/InternalBehavior.py:600
   k!"ExecutableEntityActivationReason" ⟨false, some (2, [.sup 2, .field k!"bitPosition" .none]),
     [(k!"getBitPosition", .get k!"bitPosition") /- 626 -/,
      (k!"setBitPosition", .set k!"bitPosition" true) /- 636 -/]⟩
   (.node .nil
    -- M2/AUTOSARTemplates/CommonStructure/Timing/TimingConstraint/ExecutionOrderConstraint.py:198
    k!"ExecutionOrderConstraintTypeEnum" ⟨false, none,
     []⟩
    .nil))))

def accTable113 : Bst (ClassAcc) :=
 (.node (.node (.node (.node .nil
    -- M2/AUTOSARTemplates/SWComponentTemplate/NvBlockComponent.py:715
    k!"ModeSwitchEventTriggeredActivity" ⟨false, some (0, [.sup 0, .field k!"role" .none, .field k!"swcModeSwitchEventRef" .none]),
     [(k!"getRole", .get k!"role") /- 738 -/,
      (k!"setRole", .set k!"role" true) /- 749 -/,
      (k!"getSwcModeSwitchEventRef", .get k!"swcModeSwitchEventRef") /- 766 -/,
      (k!"setSwcModeSwitchEventRef", .set k!"swcModeSwitchEventRef" true) /- 777 -/]⟩
    .nil)
   -- M2/AUTOSARTemplates/SWComponentTemplate/Components/InstanceRefs.py:62
   k!"PModeGroupInAtomicSwcInstanceRef" ⟨false, some (0, [.sup 0, .field k!"contextPPortRef" .none, .field k!"targetModeGroupRef" .none]),
     [(k!"getContextPPortRef", .get k!"contextPPortRef") /- 81 -/,
      (k!"setContextPPortRef", .set k!"contextPPortRef" false) /- 84 -/,
      (k!"getTargetModeGroupRef", .get k!"targetModeGroupRef") /- 88 -/,
      (k!"setTargetModeGroupRef", .set k!"targetModeGroupRef" false) /- 91 -/]⟩
   (.node .nil
    -- M2/AUTOSARTemplates/SWComponentTemplate/Composition/InstanceRefs.py:176
    k!"POperationInAtomicSwcInstanceRef" ⟨false, some (0, [.sup 0, .field k!"contextPPortRef" .none, .field k!"targetProvidedOperationRef" .none]),
     [(k!"getContextPPortRef", .get k!"contextPPortRef") /- 195 -/,
      (k!"setContextPPortRef", .set k!"contextPPortRef" false) /- 198 -/,
      (k!"getTargetProvidedOperationRef", .get k!"targetProvidedOperationRef") /- 202 -/,
      (k!"setTargetProvidedOperationRef", .set k!"targetProvidedOperationRef" false) /- 205 -/]⟩
    .nil))
  -- M2/AUTOSARTemplates/SWComponentTemplate/Composition/InstanceRefs.py:14
  k!"PortInCompositionTypeInstanceRef" ⟨true, some (0, [.guard k!"PortInCompositionTypeInstanceRef", .sup 0, .field k!"abstractContextComponentRef" .none, .field k!"baseRef" .none, .field k!"targetPortRef" .none]),
     [(k!"getAbstractContextComponentRef", .get k!"abstractContextComponentRef") /- 39 -/,
      (k!"setAbstractContextComponentRef", .set k!"abstractContextComponentRef" false) /- 42 -/,
      (k!"getBaseRef", .get k!"baseRef") /- 46 -/,
      (k!"setBaseRef", .set k!"baseRef" false) /- 49 -/,
      (k!"getTargetPortRef", .get k!"targetPortRef") /- 53 -/,
      (k!"setTargetPortRef", .set k!"targetPortRef" false) /- 56 -/]⟩
  (.node (.node .nil
    -- M2/AUTOSARTemplates/SWComponentTemplate/Components/InstanceRefs.py:96
    k!"RModeGroupInAtomicSWCInstanceRef" ⟨false, some (0, [.sup 0, .field k!"contextRPortRef" .none, .field k!"targetModeGroupRef" .none]),
     [(k!"getContextRPortRef", .get k!"contextRPortRef") /- 115 -/,
      (k!"setContextRPortRef", .set k!"contextRPortRef" false) /- 118 -/,
      (k!"getTargetModeGroupRef", .get k!"targetModeGroupRef") /- 122 -/,
      (k!"setTargetModeGroupRef", .set k!"targetModeGroupRef" false) /- 125 -/]⟩
    .nil)
   -- M2/AUTOSARTemplates/SWComponentTemplate/Composition/InstanceRefs.py:210
   k!"ROperationInAtomicSwcInstanceRef" ⟨false, some (0, [.sup 0, .field k!"contextRPortRef" .none, .field k!"targetRequiredOperationRef" .none]),
     [(k!"getContextRPortRef", .get k!"contextRPortRef") /- 229 -/,
      (k!"setContextRPortRef", .set k!"contextRPortRef" false) /- 232 -/,
      (k!"getTargetRequiredOperationRef", .get k!"targetRequiredOperationRef") /- 236 -/,
      (k!"setTargetRequiredOperationRef", .set k!"targetRequiredOperationRef" false) /- 239 -/]⟩
   (.node .nil
    -- M2/AUTOSARTemplates/CommonStructure/SignalServiceTranslation.py:336
    k!"SignalServiceTranslationPropsSet" ⟨false, some (2, [.sup 2, .field k!"signalServiceTranslationProps" .nil]),
     [(k!"createSignalServiceTranslationProps", .other) /- 355 -/,
      (k!"getSignalServiceTranslationProps", .get k!"signalServiceTranslationProps") /- 364 -/]⟩
    .nil)))
 -- M2/AUTOSARTemplates/SystemTemplate/Fibex/Fibex4Can/CanTopology.py:937
 k!"AbstractCanCommunicationConnector" ⟨true, some (2, [.guard k!"AbstractCanCommunicationConnector", .sup 2]),
     []⟩
 (.node (.node (.node .nil
    -- M2/AUTOSARTemplates/SWComponentTemplate/SwcInternalBehavior/__init__.py:58
    k!"AsynchronousServerCallResultPoint" ⟨false, some (2, [.sup 2, .field k!"asynchronousServerCallPointRef" .none]),
     [(k!"getAsynchronousServerCallPointRef", .get k!"asynchronousServerCallPointRef") /- 69 -/,
      (k!"setAsynchronousServerCallPointRef", .set k!"asynchronousServerCallPointRef" false) /- 72 -/]⟩
    .nil)
   -- M2/AUTOSARTemplates/SystemTemplate/Transformer/__init__.py:289
   k!"EndToEndTransformationDescription" ⟨false, some (0, [.sup 0, .field k!"clearFromValidToInvalid" .none, .field k!"counterOffset" .none, .field k!"crcOffset" .none, .field k!"dataIdMode" .none, .field k!"dataIdNibbleOffset" .none, .field k!"e2eProfileCompatibilityPropsRef" .none, .field k!"maxDeltaCounter" .none, .field k!"maxErrorStateInit" .none, .field k!"maxErrorStateInvalid" .none, .field k!"maxErrorStateValid" .none, .field k!"maxNoNewOrRepeatedData" .none, .field k!"minOkStateInit" .none, .field k!"minOkStateInvalid" .none, .field k!"minOkStateValid" .none, .field k!"offset" .none, .field k!"profileBehavior" .none, .field k!"profileName" .none, .field k!"syncCounterInit" .none, .field k!"upperHeaderBitsToShift" .none, .field k!"windowSizeInit" .none, .field k!"windowSizeInvalid" .none, .field k!"windowSizeValid" .none]),
     [(k!"getClearFromValidToInvalid", .get k!"clearFromValidToInvalid") /- 413 -/,
      (k!"setClearFromValidToInvalid", .set k!"clearFromValidToInvalid" true) /- 419 -/,
      (k!"getCounterOffset", .get k!"counterOffset") /- 429 -/,
      (k!"setCounterOffset", .set k!"counterOffset" true) /- 435 -/,
      (k!"getCrcOffset", .get k!"crcOffset") /- 445 -/,
      (k!"setCrcOffset", .set k!"crcOffset" true) /- 451 -/,
      (k!"getDataIdMode", .get k!"dataIdMode") /- 461 -/,
      (k!"setDataIdMode", .set k!"dataIdMode" true) /- 467 -/,
      (k!"getDataIdNibbleOffset", .get k!"dataIdNibbleOffset") /- 477 -/,
      (k!"setDataIdNibbleOffset", .set k!"dataIdNibbleOffset" true) /- 483 -/,
      (k!"getE2eProfileCompatibilityPropsRef", .get k!"e2eProfileCompatibilityPropsRef") /- 493 -/,
      (k!"setE2eProfileCompatibilityPropsRef", .set k!"e2eProfileCompatibilityPropsRef" true) /- 499 -/,
      (k!"getMaxDeltaCounter", .get k!"maxDeltaCounter") /- 509 -/,
      (k!"setMaxDeltaCounter", .set k!"maxDeltaCounter" true) /- 515 -/,
      (k!"getMaxErrorStateInit", .get k!"maxErrorStateInit") /- 525 -/,
      (k!"setMaxErrorStateInit", .set k!"maxErrorStateInit" true) /- 531 -/,
      (k!"getMaxErrorStateInvalid", .get k!"maxErrorStateInvalid") /- 541 -/,
      (k!"setMaxErrorStateInvalid", .set k!"maxErrorStateInvalid" true) /- 547 -/,
      (k!"getMaxErrorStateValid", .get k!"maxErrorStateValid") /- 557 -/,
      (k!"setMaxErrorStateValid", .set k!"maxErrorStateValid" true) /- 563 -/,
      (k!"getMaxNoNewOrRepeatedData", .get k!"maxNoNewOrRepeatedData") /- 573 -/,
      (k!"setMaxNoNewOrRepeatedData", .set k!"maxNoNewOrRepeatedData" true) /- 579 -/,
      (k!"getMinOkStateInit", .get k!"minOkStateInit") /- 589 -/,
      (k!"setMinOkStateInit", .set k!"minOkStateInit" true) /- 595 -/,
      (k!"getMinOkStateInvalid", .get k!"minOkStateInvalid") /- 605 -/,
      (k!"setMinOkStateInvalid", .set k!"minOkStateInvalid" true) /- 611 -/,
      (k!"getMinOkStateValid", .get k!"minOkStateValid") /- 621 -/,
      (k!"setMinOkStateValid", .set k!"minOkStateValid" true) /- 627 -/,
      (k!"getOffset", .get k!"offset") /- 637 -/,
      (k!"setOffset", .set k!"offset" true) /- 643 -/,
      (k!"getProfileBehavior", .get k!"profileBehavior") /- 653 -/,
      (k!"setProfileBehavior", .set k!"profileBehavior" true) /- 659 -/,
      (k!"getProfileName", .get k!"profileName") /- 669 -/,
      (k!"setProfileName", .set k!"profileName" true) /- 675 -/,
      (k!"getSyncCounterInit", .get k!"syncCounterInit") /- 685 -/,
      (k!"setSyncCounterInit", .set k!"syncCounterInit" true) /- 691 -/,
      (k!"getUpperHeaderBitsToShift", .get k!"upperHeaderBitsToShift") /- 701 -/,
      (k!"setUpperHeaderBitsToShift", .set k!"upperHeaderBitsToShift" true) /- 707 -/,
      (k!"getWindowSizeInit", .get k!"windowSizeInit") /- 717 -/,
      (k!"setWindowSizeInit", .set k!"windowSizeInit" true) /- 723 -/,
      (k!"getWindowSizeInvalid", .get k!"windowSizeInvalid") /- 733 -/,
      (k!"setWindowSizeInvalid", .set k!"windowSizeInvalid" true) /- 739 -/,
      (k!"getWindowSizeValid", .get k!"windowSizeValid") /- 749 -/,
      (k!"setWindowSizeValid", .set k!"windowSizeValid" true) /- 755 -/]⟩
   (.node .nil
    -- M2/MSR/DataDictionary/AuxillaryObjects.py:8
    k!"MemoryAllocationKeywordPolicyType" ⟨false, some (0, [.sup 1]),
     []⟩
    .nil))
  -- M2/AUTOSARTemplates/BswModuleTemplate/BswBehavior/__init__.py:2088
  k!"RoleBasedBswModuleEntryAssignment" ⟨false, some (0, [.sup 0, .field k!"assignedEntryRef" .none, .field k!"role" .none]),
     [(k!"getAssignedEntryRef", .get k!"assignedEntryRef") /- 2122 -/,
      (k!"setAssignedEntryRef", .set k!"assignedEntryRef" true) /- 2134 -/,
      (k!"getRole", .get k!"role") /- 2152 -/,
      (k!"setRole", .set k!"role" true) /- 2165 -/]⟩
  (.node (.node .nil
    -- M2/AUTOSARTemplates/SystemTemplate/Fibex/FibexCore/CoreCommunication.py:2177
    k!"SecureCommunicationFreshnessProps" ⟨false, some (2, [.sup 2, .field k!"freshnessCounterSyncAttempts" .none, .field k!"freshnessTimestampTimePeriodFactor" .none, .field k!"freshnessValueLength" .none, .field k!"freshnessValueTxLength" .none, .field k!"useFreshnessTimestamp" .none]),
     [(k!"getFreshnessCounterSyncAttempts", .get k!"freshnessCounterSyncAttempts") /- 2219 -/,
      (k!"setFreshnessCounterSyncAttempts", .set k!"freshnessCounterSyncAttempts" true) /- 2225 -/,
      (k!"getFreshnessTimestampTimePeriodFactor", .get k!"freshnessTimestampTimePeriodFactor") /- 2234 -/,
      (k!"setFreshnessTimestampTimePeriodFactor", .set k!"freshnessTimestampTimePeriodFactor" true) /- 2240 -/,
      (k!"getFreshnessValueLength", .get k!"freshnessValueLength") /- 2249 -/,
      (k!"setFreshnessValueLength", .set k!"freshnessValueLength" true) /- 2255 -/,
      (k!"getFreshnessValueTxLength", .get k!"freshnessValueTxLength") /- 2264 -/,
      (k!"setFreshnessValueTxLength", .set k!"freshnessValueTxLength" true) /- 2270 -/,
      (k!"getUseFreshnessTimestamp", .get k!"useFreshnessTimestamp") /- 2279 -/,
      (k!"setUseFreshnessTimestamp", .set k!"useFreshnessTimestamp" true) /- 2285 -/]⟩
    .nil)
   -- M2/AUTOSARTemplates/CommonStructure/ServiceNeeds.py:4614
   k!"WarningIndicatorRequestedBitNeeds" ⟨false, some (2, [.sup 2]),
     []⟩
   (.node .nil
    -- M2/AUTOSARTemplates/SystemTemplate/Fibex/Fibex4Can/CanTopology.py:888
    k!"AbstractCanCommunicationController" ⟨true, some (2, [.guard k!"AbstractCanCommunicationController", .sup 2, .field k!"canControllerAttributes" .none]),
     [(k!"getCanControllerAttributes", .get k!"canControllerAttributes") /- 908 -/,
      (k!"setCanControllerAttributes", .set k!"canControllerAttributes" true) /- 914 -/]⟩
    .nil))))

-- M2/AUTOSARTemplates/SystemTemplate/Fibex/Fibex4Flexray/FlexrayCommunication.py:23
def accTable114 : Bst (ClassAcc) :=
 .node accTable112 k!"FlexrayAbsolutelyScheduledTiming" ⟨false, some (0, [.sup 0, .field k!"communicationCycle" .none, .field k!"slotID" .none]),
     [(k!"getCommunicationCycle", .get k!"communicationCycle") /- 43 -/,
      (k!"setCommunicationCycle", .set k!"communicationCycle" true) /- 46 -/,
      (k!"getSlotID", .get k!"slotID") /- 51 -/,
      (k!"setSlotID", .set k!"slotID" true) /- 54 -/]⟩ accTable113

-- M2/AUTOSARTemplates/SWComponentTemplate/ApplicationAttributes/__init__.py:321
def accTable115 : Bst (ClassAcc) :=
 .node accTable111 k!"IoHwAbstractionServerAnnotation" ⟨false, some (0, [.sup 0, .field k!"filteringDebouncing" .none, .field k!"pulseTest" .none, .field k!"triggerRef" .none]),
     [(k!"getFilteringDebouncing", .get k!"filteringDebouncing") /- 349 -/,
      (k!"setFilteringDebouncing", .set k!"filteringDebouncing" true) /- 358 -/,
      (k!"getPulseTest", .get k!"pulseTest") /- 373 -/,
      (k!"setPulseTest", .set k!"pulseTest" true) /- 382 -/,
      (k!"getTriggerRef", .get k!"triggerRef") /- 397 -/,
      (k!"setTriggerRef", .set k!"triggerRef" true) /- 406 -/]⟩ accTable114

def accTable116 : Bst (ClassAcc) :=
 (.node (.node (.node (.node (.node .nil
     -- M2/AUTOSARTemplates/SWComponentTemplate/Components/__init__.py:646
     k!"ComplexDeviceDriverSwComponentType" ⟨false, some (2, [.sup 2, .field k!"hardwareElementRefs" .nil]),
     [(k!"getHardwareElementRefs", .get k!"hardwareElementRefs") /- 663 -/,
      (k!"addHardwareElementRef", .add k!"hardwareElementRefs" true false) /- 674 -/]⟩
     .nil)
    -- M2/AUTOSARTemplates/CommonStructure/ServiceNeeds.py:1580
    k!"DiagnosticClearDtcNotificationEnum" ⟨false, some (0, [.sup 1]),
     []⟩
    .nil)
   -- M2/AUTOSARTemplates/CommonStructure/ServiceNeeds.py:2314
   k!"DiagnosticDenominatorConditionEnum" ⟨false, some (0, [.sup 1]),
     []⟩
   (.node .nil
    -- M2/AUTOSARTemplates/CommonStructure/ServiceNeeds.py:2637
    k!"DiagnosticRequestFileTransferNeeds" ⟨false, some (2, [.sup 2]),
     []⟩
    .nil))
  -- M2/AUTOSARTemplates/ECUCParameterDefTemplate.py:486
  k!"EcucMultiplicityConfigurationClass" ⟨false, some (0, [.sup 0]),
     []⟩
  (.node (.node .nil
    -- M2/AUTOSARTemplates/SystemTemplate/Transformer/__init__.py:1575
    k!"EndToEndTransformationComSpecProps" ⟨false, some (0, [.sup 0, .field k!"clearFromValidToInvalid" .none, .field k!"disableEndToEndCheck" .none, .field k!"disableEndToEndStateMachine" .none, .field k!"e2eProfileCompatibilityPropsRef" .none, .field k!"maxDeltaCounter" .none, .field k!"maxErrorStateInit" .none, .field k!"maxErrorStateInvalid" .none, .field k!"maxErrorStateValid" .none, .field k!"maxNoNewOrRepeatedData" .none, .field k!"minOkStateInit" .none, .field k!"minOkStateInvalid" .none, .field k!"minOkStateValid" .none, .field k!"syncCounterInit" .none, .field k!"windowSizeInit" .none, .field k!"windowSizeInvalid" .none, .field k!"windowSizeValid" .none]),
     [(k!"getClearFromValidToInvalid", .get k!"clearFromValidToInvalid") /- 1669 -/,
      (k!"setClearFromValidToInvalid", .set k!"clearFromValidToInvalid" true) /- 1675 -/,
      (k!"getDisableEndToEndCheck", .get k!"disableEndToEndCheck") /- 1684 -/,
      (k!"setDisableEndToEndCheck", .set k!"disableEndToEndCheck" true) /- 1690 -/,
      (k!"getDisableEndToEndStateMachine", .get k!"disableEndToEndStateMachine") /- 1699 -/,
      (k!"setDisableEndToEndStateMachine", .set k!"disableEndToEndStateMachine" true) /- 1705 -/,
      (k!"getE2eProfileCompatibilityPropsRef", .get k!"e2eProfileCompatibilityPropsRef") /- 1714 -/,
      (k!"setE2eProfileCompatibilityPropsRef", .set k!"e2eProfileCompatibilityPropsRef" true) /- 1720 -/,
      (k!"getMaxDeltaCounter", .get k!"maxDeltaCounter") /- 1729 -/,
      (k!"setMaxDeltaCounter", .set k!"maxDeltaCounter" true) /- 1735 -/,
      (k!"getMaxErrorStateInit", .get k!"maxErrorStateInit") /- 1744 -/,
      (k!"setMaxErrorStateInit", .set k!"maxErrorStateInit" true) /- 1750 -/,
      (k!"getMaxErrorStateInvalid", .get k!"maxErrorStateInvalid") /- 1759 -/,
      (k!"setMaxErrorStateInvalid", .set k!"maxErrorStateInvalid" true) /- 1765 -/,
      (k!"getMaxErrorStateValid", .get k!"maxErrorStateValid") /- 1774 -/,
      (k!"setMaxErrorStateValid", .set k!"maxErrorStateValid" true) /- 1780 -/,
      (k!"getMaxNoNewOrRepeatedData", .get k!"maxNoNewOrRepeatedData") /- 1789 -/,
      (k!"setMaxNoNewOrRepeatedData", .set k!"maxNoNewOrRepeatedData" true) /- 1795 -/,
      (k!"getMinOkStateInit", .get k!"minOkStateInit") /- 1804 -/,
      (k!"setMinOkStateInit", .set k!"minOkStateInit" true) /- 1810 -/,
      (k!"getMinOkStateInvalid", .get k!"minOkStateInvalid") /- 1819 -/,
      (k!"setMinOkStateInvalid", .set k!"minOkStateInvalid" true) /- 1825 -/,
      (k!"getMinOkStateValid", .get k!"minOkStateValid") /- 1834 -/,
      (k!"setMinOkStateValid", .set k!"minOkStateValid" true) /- 1840 -/,
      (k!"getSyncCounterInit", .get k!"syncCounterInit") /- 1849 -/,
      (k!"setSyncCounterInit", .set k!"syncCounterInit" true) /- 1855 -/,
      (k!"getWindowSizeInit", .get k!"windowSizeInit") /- 1864 -/,
      (k!"setWindowSizeInit", .set k!"windowSizeInit" true) /- 1870 -/,
      (k!"getWindowSizeInvalid", .get k!"windowSizeInvalid") /- 1879 -/,
      (k!"setWindowSizeInvalid", .set k!"windowSizeInvalid" true) /- 1885 -/,
      (k!"getWindowSizeValid", .get k!"windowSizeValid") /- 1894 -/,
      (k!"setWindowSizeValid", .set k!"windowSizeValid" true) /- 1900 -/]⟩
    .nil)
   -- M2/AUTOSARTemplates/SystemTemplate/Transformer/__init__.py:1505
   k!"EndToEndTransformationISignalProps" ⟨false, some (0, [.sup 0, .field k!"dataIds" .nil, .field k!"dataLength" .none, .field k!"maxDataLength" .none, .field k!"minDataLength" .none, .field k!"sourceId" .none]),
     [(k!"getDataIds", .get k!"dataIds") /- 1534 -/,
      (k!"addDataId", .add k!"dataIds" true false) /- 1537 -/,
      (k!"getDataLength", .get k!"dataLength") /- 1542 -/,
      (k!"setDataLength", .set k!"dataLength" true) /- 1545 -/,
      (k!"getMaxDataLength", .get k!"maxDataLength") /- 1550 -/,
      (k!"setMaxDataLength", .set k!"maxDataLength" true) /- 1553 -/,
      (k!"getMinDataLength", .get k!"minDataLength") /- 1558 -/,
      (k!"setMinDataLength", .set k!"minDataLength" true) /- 1561 -/,
      (k!"getSourceId", .get k!"sourceId") /- 1566 -/,
      (k!"setSourceId", .set k!"sourceId" true) /- 1569 -/]⟩
   (.node .nil
    -- M2/AUTOSARTemplates/CommonStructure/ServiceNeeds.py:3455
    k!"J1939RmIncomingRequestServiceNeeds" ⟨false, some (2, [.sup 2]),
     []⟩
    .nil)))
 -- M2/AUTOSARTemplates/CommonStructure/ServiceNeeds.py:3475
 k!"J1939RmOutgoingRequestServiceNeeds" ⟨false, some (2, [.sup 2]),
     []⟩
 (.node (.node (.node .nil
    -- M2/AUTOSARTemplates/SWComponentTemplate/Components/InstanceRefs.py:301
    k!"PTriggerInAtomicSwcTypeInstanceRef" ⟨false, some (0, [.sup 0, .field k!"contextPPortRef" .none, .field k!"targetTriggerRef" .none]),
     [(k!"getContextPPortRef", .get k!"contextPPortRef") /- 328 -/,
      (k!"setContextPPortRef", .set k!"contextPPortRef" true) /- 338 -/,
      (k!"getTargetTriggerRef", .get k!"targetTriggerRef") /- 354 -/,
      (k!"setTargetTriggerRef", .set k!"targetTriggerRef" true) /- 363 -/]⟩
    .nil)
   -- M2/AUTOSARTemplates/GenericStructure/VariantHandling/AttributeValueVariationPoints/__init__.py:265
   k!"PositiveIntegerValueVariationPoint" ⟨false, some (0, [.sup 0]),
     []⟩
   (.node .nil
    -- M2/AUTOSARTemplates/SystemTemplate/DataMapping.py:378
    k!"SenderReceiverToSignalGroupMapping" ⟨false, some (0, [.sup 0, .field k!"dataElementIRef" .none, .field k!"signalGroupRef" .none, .field k!"typeMapping" .none]),
     [(k!"getDataElementIRef", .get k!"dataElementIRef") /- 401 -/,
      (k!"setDataElementIRef", .set k!"dataElementIRef" false) /- 404 -/,
      (k!"getSignalGroupRef", .get k!"signalGroupRef") /- 408 -/,
      (k!"setSignalGroupRef", .set k!"signalGroupRef" false) /- 411 -/,
      (k!"getTypeMapping", .get k!"typeMapping") /- 415 -/,
      (k!"setTypeMapping", .set k!"typeMapping" false) /- 418 -/]⟩
    .nil))
  -- M2/AUTOSARTemplates/CommonStructure/SignalServiceTranslation.py:126
  k!"SignalServiceTranslationEventProps" ⟨false, some (2, [.sup 2, .field k!"elementProps" .nil, .field k!"safeTranslation" .none, .field k!"secureTranslation" .none, .field k!"translationTarget" .none]),
     [(k!"createSignalServiceTranslationElementProps", .other) /- 160 -/,
      (k!"getSignalServiceTranslationElementProps", .get k!"elementProps") /- 169 -/,
      (k!"getSafeTranslation", .get k!"safeTranslation") /- 175 -/,
      (k!"setSafeTranslation", .set k!"safeTranslation" true) /- 181 -/,
      (k!"getSecureTranslation", .get k!"secureTranslation") /- 190 -/,
      (k!"setSecureTranslation", .set k!"secureTranslation" true) /- 196 -/,
      (k!"getTranslationTarget", .get k!"translationTarget") /- 205 -/,
      (k!"setTranslationTarget", .set k!"translationTarget" true) /- 211 -/]⟩
  (.node (.node .nil
    -- M2/AUTOSARTemplates/SWComponentTemplate/Communication.py:344
    k!"TransmissionAcknowledgementRequest" ⟨false, some (0, [.sup 0, .field k!"timeout" .none]),
     [(k!"getTimeout", .get k!"timeout") /- 363 -/,
      (k!"setTimeout", .set k!"timeout" true) /- 369 -/]⟩
    .nil)
   -- M2/AUTOSARTemplates/SWComponentTemplate/SwcInternalBehavior/InstanceRefsUsage.py:127
   k!"VariableInAtomicSWCTypeInstanceRef" ⟨false, some (0, [.sup 0, .field k!"baseRef" .none, .field k!"contextDataPrototypeRefs" .nil, .field k!"portPrototypeRef" .none, .field k!"rootVariableDataPrototypeRef" .none, .field k!"targetDataPrototypeRef" .none]),
     [(k!"getBaseRef", .get k!"baseRef") /- 155 -/,
      (k!"setBaseRef", .set k!"baseRef" false) /- 164 -/,
      (k!"getContextDataPrototypeRefs", .get k!"contextDataPrototypeRefs") /- 177 -/,
      (k!"addContextDataPrototypeRef", .add k!"contextDataPrototypeRefs" false false) /- 186 -/,
      (k!"getPortPrototypeRef", .get k!"portPrototypeRef") /- 199 -/,
      (k!"setPortPrototypeRef", .set k!"portPrototypeRef" false) /- 208 -/,
      (k!"getRootVariableDataPrototypeRef", .get k!"rootVariableDataPrototypeRef") /- 221 -/,
      (k!"setRootVariableDataPrototypeRef", .set k!"rootVariableDataPrototypeRef" false) /- 230 -/,
      (k!"getTargetDataPrototypeRef", .get k!"targetDataPrototypeRef") /- 243 -/,
      (k!"setTargetDataPrototypeRef", .set k!"targetDataPrototypeRef" false) /- 252 -/]⟩
   (.node .nil
    -- M2/AUTOSARTemplates/CommonStructure/Constants/__init__.py:85
    k!"AbstractRuleBasedValueSpecification" ⟨true, some (0, [.guard k!"AbstractRuleBasedValueSpecification", .sup 0]),
     []⟩
    .nil))))

def accTable117 : Bst (ClassAcc) :=
 (.node (.node (.node (.node .nil
    -- M2/AUTOSARTemplates/SWComponentTemplate/PortInterface/__init__.py:802
    k!"ClientServerApplicationErrorMapping" ⟨false, some (0, [.sup 0, .field k!"firstApplicationErrorRef" .none, .field k!"secondApplicationErrorRef" .none]),
     [(k!"getFirstApplicationErrorRef", .get k!"firstApplicationErrorRef") /- 816 -/,
      (k!"setFirstApplicationErrorRef", .set k!"firstApplicationErrorRef" false) /- 819 -/,
      (k!"getSecondApplicationErrorRef", .get k!"secondApplicationErrorRef") /- 823 -/,
      (k!"setSecondApplicationErrorRef", .set k!"secondApplicationErrorRef" false) /- 826 -/]⟩
    .nil)
   -- M2/AUTOSARTemplates/CommonStructure/ServiceNeeds.py:904
   k!"DiagnosticCommunicationManagerNeeds" ⟨false, some (2, [.sup 2, .field k!"serviceRequestCallbackType" .none]),
     [(k!"getServiceRequestCallbackType", .get k!"serviceRequestCallbackType") /- 928 -/,
      (k!"setServiceRequestCallbackType", .set k!"serviceRequestCallbackType" false) /- 937 -/]⟩
   (.node .nil
    -- M2/AUTOSARTemplates/SWComponentTemplate/EndToEndProtection.py:280
    k!"EndToEndProtectionVariablePrototype" ⟨false, some (0, [.sup 0, .field k!"_receiverIRefs" .nil, .field k!"senderIRef" .none, .field k!"shortLabel" .none]),
     [(k!"addReceiverIref", .add k!"_receiverIRefs" false false) /- 298 -/,
      (k!"getReceiverIrefs", .get k!"_receiverIRefs") /- 307 -/]⟩
    .nil))
  -- M2/AUTOSARTemplates/CommonStructure/ServiceNeeds.py:3152
  k!"FunctionInhibitionAvailabilityNeeds" ⟨false, some (2, [.sup 2, .field k!"controlledFidRef" .none]),
     [(k!"getControlledFidRef", .get k!"controlledFidRef") /- 3177 -/,
      (k!"setControlledFidRef", .set k!"controlledFidRef" true) /- 3186 -/]⟩
  (.node (.node .nil
    -- M2/AUTOSARTemplates/SystemTemplate/Fibex/FibexCore/Timing.py:8
    k!"ModeDrivenTransmissionModeCondition" ⟨false, some (0, [.sup 0, .field k!"modeDeclarationRef" .none]),
     [(k!"getModeDeclarationRef", .get k!"modeDeclarationRef") /- 24 -/,
      (k!"setModeDeclarationRef", .set k!"modeDeclarationRef" false) /- 27 -/]⟩
    .nil)
   -- M2/AUTOSARTemplates/SWComponentTemplate/SwcInternalBehavior/InstanceRefsUsage.py:266
   k!"ParameterInAtomicSWCTypeInstanceRef" ⟨false, some (0, [.sup 0, .field k!"baseRef" .none, .field k!"contextDataPrototypeRefs" .nil, .field k!"portPrototypeRef" .none, .field k!"rootParameterDataPrototypeRef" .none, .field k!"targetDataPrototypeRef" .none]),
     [(k!"setBaseRef", .set k!"baseRef" true) /- 305 -/,
      (k!"getBaseRef", .get k!"baseRef") /- 318 -/,
      (k!"addContextDataPrototypeRef", .add k!"contextDataPrototypeRefs" true false) /- 327 -/,
      (k!"getContextDataPrototypeRefs", .get k!"contextDataPrototypeRefs") /- 340 -/,
      (k!"setPortPrototypeRef", .set k!"portPrototypeRef" true) /- 349 -/,
      (k!"getPortPrototypeRef", .get k!"portPrototypeRef") /- 362 -/,
      (k!"setRootParameterDataPrototypeRef", .set k!"rootParameterDataPrototypeRef" true) /- 371 -/,
      (k!"getRootParameterDataPrototypeRef", .get k!"rootParameterDataPrototypeRef") /- 384 -/,
      (k!"setTargetDataPrototypeRef", .set k!"targetDataPrototypeRef" true) /- 393 -/,
      (k!"getTargetDataPrototypeRef", .get k!"targetDataPrototypeRef") /- 406 -/]⟩
   (.node .nil
    -- M2/AUTOSARTemplates/CommonStructure/SignalServiceTranslation.py:22
    k!"SignalServiceTranslationControlEnum" ⟨false, some (0, [.sup 1]),
     []⟩
    .nil)))
 -- M2/AUTOSARTemplates/GenericStructure/VariantHandling/AttributeValueVariationPoints/__init__.py:285
 k!"UnlimitedIntegerValueVariationPoint" ⟨false, some (0, [.sup 0]),
     []⟩
 (.node (.node (.node .nil
    -- M2/AUTOSARTemplates/BswModuleTemplate/BswBehavior/__init__.py:289
    k!"BswAsynchronousServerCallResultPoint" ⟨false, some (2, [.sup 2, .field k!"asynchronousServerCallPointRef" .none]),
     []⟩
    .nil)
   -- M2/AUTOSARTemplates/CommonStructure/Constants/__init__.py:633
   k!"CompositeRuleBasedValueSpecification" ⟨false, some (0, [.sup 0, .field k!"arguments" .nil, .field k!"compoundPrimitiveArguments" .nil, .field k!"maxSizeToFill" .none, .field k!"rule" .none]),
     [(k!"addArgument", .add k!"arguments" true false) /- 666 -/,
      (k!"getArguments", .get k!"arguments") /- 675 -/,
      (k!"addCompoundPrimitiveArgument", .add k!"compoundPrimitiveArguments" true false) /- 681 -/,
      (k!"getCompoundPrimitiveArguments", .get k!"compoundPrimitiveArguments") /- 690 -/,
      (k!"getMaxSizeToFill", .get k!"maxSizeToFill") /- 696 -/,
      (k!"setMaxSizeToFill", .set k!"maxSizeToFill" true) /- 702 -/,
      (k!"getRule", .get k!"rule") /- 711 -/,
      (k!"setRule", .set k!"rule" true) /- 717 -/]⟩
   (.node .nil
    -- M2/AUTOSARTemplates/CommonStructure/ModeDeclaration.py:50
    k!"ModeDeclarationGroupPrototypeMapping" ⟨false, some (0, [.sup 0, .field k!"firstModeGroupRef" .none, .field k!"modeDeclarationMappingSetRef" .none, .field k!"secondModeGroupRef" .none]),
     [(k!"getFirstModeGroupRef", .get k!"firstModeGroupRef") /- 78 -/,
      (k!"setFirstModeGroupRef", .set k!"firstModeGroupRef" true) /- 87 -/,
      (k!"getModeDeclarationMappingSetRef", .get k!"modeDeclarationMappingSetRef") /- 102 -/,
      (k!"setModeDeclarationMappingSetRef", .set k!"modeDeclarationMappingSetRef" true) /- 111 -/,
      (k!"getSecondModeGroupRef", .get k!"secondModeGroupRef") /- 126 -/,
      (k!"setSecondModeGroupRef", .set k!"secondModeGroupRef" true) /- 135 -/]⟩
    .nil))
  -- M2/AUTOSARTemplates/CommonStructure/Constants/__init__.py:882
  k!"NumericalRuleBasedValueSpecification" ⟨false, some (0, [.sup 0, .field k!"ruleBasedValues" .none]),
     [(k!"getRuleBasedValues", .get k!"ruleBasedValues") /- 896 -/,
      (k!"setRuleBasedValues", .set k!"ruleBasedValues" false) /- 899 -/]⟩
  (.node (.node .nil
    -- M2/AUTOSARTemplates/CommonStructure/SignalServiceTranslation.py:50
    k!"SignalServiceTranslationElementProps" ⟨false, some (2, [.sup 2, .field k!"element" .none, .field k!"filter" .none, .field k!"transmissionTrigger" .none]),
     [(k!"getElement", .get k!"element") /- 80 -/,
      (k!"setElement", .set k!"element" true) /- 86 -/,
      (k!"getFilter", .get k!"filter") /- 95 -/,
      (k!"setFilter", .set k!"filter" true) /- 101 -/,
      (k!"getTransmissionTrigger", .get k!"transmissionTrigger") /- 110 -/,
      (k!"setTransmissionTrigger", .set k!"transmissionTrigger" true) /- 116 -/]⟩
    .nil)
   -- M2/AUTOSARTemplates/CommonStructure/SwcBswMapping.py:280
   k!"SwcBswSynchronizedModeGroupPrototype" ⟨false, some (0, [.sup 0, .field k!"bswModeGroupRef" .none, .field k!"swcModeGroupIRef" .none]),
     [(k!"getBswModeGroupRef", .get k!"bswModeGroupRef") /- 305 -/,
      (k!"setBswModeGroupRef", .set k!"bswModeGroupRef" true) /- 314 -/,
      (k!"getSwcModeGroupIRef", .get k!"swcModeGroupIRef") /- 329 -/,
      (k!"setSwcModeGroupIRef", .set k!"swcModeGroupIRef" true) /- 338 -/]⟩
   (.node .nil
    -- M2/AUTOSARTemplates/SWComponentTemplate/PortInterface/__init__.py:1159
    k!"VariableAndParameterInterfaceMapping" ⟨false, some (2, [.sup 2, .field k!"dataMappings" .nil]),
     [(k!"getDataMappings", .get k!"dataMappings") /- 1170 -/,
      (k!"addDataMapping", .add k!"dataMappings" false false) /- 1173 -/]⟩
    .nil))))

-- M2/AUTOSARTemplates/SystemTemplate/RteEventToOsTaskMapping.py:8
def accTable118 : Bst (ClassAcc) :=
 .node accTable116 k!"AppOsTaskProxyToEcuTaskProxyMapping" ⟨false, some (2, [.sup 2, .field k!"appTaskProxyRef" .none, .field k!"ecuTaskProxyRef" .none, .field k!"offset" .none]),
     [(k!"getAppTaskProxyRef", .get k!"appTaskProxyRef") /- 31 -/,
      (k!"setAppTaskProxyRef", .set k!"appTaskProxyRef" true) /- 34 -/,
      (k!"getEcuTaskProxyRef", .get k!"ecuTaskProxyRef") /- 39 -/,
      (k!"setEcuTaskProxyRef", .set k!"ecuTaskProxyRef" true) /- 42 -/,
      (k!"getOffset", .get k!"offset") /- 47 -/,
      (k!"setOffset", .set k!"offset" true) /- 50 -/]⟩ accTable117

def accTable119 : Bst (ClassAcc) :=
 (.node (.node (.node (.node (.node .nil
     -- M2/AUTOSARTemplates/CommonStructure/ImplementationDataTypes.py:11
     k!"AbstractImplementationDataTypeElement" ⟨true, some (2, [.guard k!"AbstractImplementationDataTypeElement", .sup 2]),
     []⟩
     .nil)
    -- M2/AUTOSARTemplates/BswModuleTemplate/BswBehavior/__init__.py:1032
    k!"BswAsynchronousServerCallReturnsEvent" ⟨false, some (2, [.sup 2, .field k!"eventSourceRef" .none]),
     [(k!"getEventSourceRef", .get k!"eventSourceRef") /- 1061 -/,
      (k!"setEventSourceRef", .set k!"eventSourceRef" true) /- 1071 -/]⟩
    .nil)
   -- M2/AUTOSARTemplates/CommonStructure/ServiceNeeds.py:2726
   k!"DiagnosticsCommunicationSecurityNeeds" ⟨false, some (2, [.sup 2]),
     []⟩
   (.node .nil
    -- M2/AUTOSARTemplates/ECUCParameterDefTemplate.py:2150
    k!"EcucDestinationUriNestingContractEnum" ⟨false, some (0, [.sup 1]),
     []⟩
    .nil))
  -- M2/AUTOSARTemplates/SWComponentTemplate/Composition/InstanceRefs.py:244
  k!"InstanceEventInCompositionInstanceRef" ⟨false, some (0, [.sup 0, .field k!"baseRef" .none, .field k!"contextComponentPrototypeRefs" .nil, .field k!"targetEventRef" .none]),
     [(k!"getBaseRef", .get k!"baseRef") /- 275 -/,
      (k!"setBaseRef", .set k!"baseRef" true) /- 285 -/,
      (k!"addContextComponentPrototypeRef", .add k!"contextComponentPrototypeRefs" true false) /- 300 -/,
      (k!"getContextComponentPrototypeRefs", .get k!"contextComponentPrototypeRefs") /- 315 -/,
      (k!"setTargetEventRef", .set k!"targetEventRef" true) /- 324 -/,
      (k!"getTargetEventRef", .get k!"targetEventRef") /- 339 -/]⟩
  (.node (.node .nil
    -- M2/AUTOSARTemplates/BswModuleTemplate/BswOverview/InstanceRefs/__init__.py:10
    k!"ModeInBswModuleDescriptionInstanceRef" ⟨false, some (0, [.sup 0, .field k!"baseRef" .none, .field k!"contextModeDeclarationGroupRef" .none, .field k!"targetModeRef" .none]),
     [(k!"getBaseRef", .get k!"baseRef") /- 43 -/,
      (k!"setBaseRef", .set k!"baseRef" true) /- 53 -/,
      (k!"getContextModeDeclarationGroupRef", .get k!"contextModeDeclarationGroupRef") /- 62 -/,
      (k!"setContextModeDeclarationGroupRef", .set k!"contextModeDeclarationGroupRef" true) /- 71 -/,
      (k!"getTargetModeRef", .get k!"targetModeRef") /- 80 -/,
      (k!"setTargetModeRef", .set k!"targetModeRef" true) /- 89 -/]⟩
    .nil)
   -- M2/AUTOSARTemplates/SWComponentTemplate/Communication.py:1392
   k!"UserDefinedTransformationComSpecProps" ⟨false, some (0, [.sup 0]),
     []⟩
   (.node .nil
    -- M2/AUTOSARTemplates/CommonStructure/Constants/__init__.py:509
    k!"ApplicationRuleBasedValueSpecification" ⟨false, some (0, [.sup 0, .field k!"category" .none, .field k!"swAxisConts" .nil, .field k!"swValueCont" .none]),
     [(k!"getCategory", .get k!"category") /- 548 -/,
      (k!"setCategory", .set k!"category" true) /- 559 -/,
      (k!"addSwAxisCont", .add k!"swAxisConts" true false) /- 576 -/,
      (k!"getSwAxisConts", .get k!"swAxisConts") /- 595 -/,
      (k!"getSwValueCont", .get k!"swValueCont") /- 608 -/,
      (k!"setSwValueCont", .set k!"swValueCont" true) /- 617 -/]⟩
    .nil)))
 -- M2/AUTOSARTemplates/SystemTemplate/Fibex/Fibex4Can/CanTopology.py:813
 k!"CanControllerConfigurationRequirements" ⟨false, some (0, [.sup 0, .field k!"maxNumberOfTimeQuantaPerBit" .none, .field k!"maxSamplePoint" .none, .field k!"maxSyncJumpWidth" .none, .field k!"minNumberOfTimeQuantaPerBit" .none, .field k!"minSamplePoint" .none, .field k!"minSyncJumpWidth" .none]),
     [(k!"getMaxNumberOfTimeQuantaPerBit", .get k!"maxNumberOfTimeQuantaPerBit") /- 845 -/,
      (k!"setMaxNumberOfTimeQuantaPerBit", .set k!"maxNumberOfTimeQuantaPerBit" false) /- 848 -/,
      (k!"getMaxSamplePoint", .get k!"maxSamplePoint") /- 852 -/,
      (k!"setMaxSamplePoint", .set k!"maxSamplePoint" false) /- 855 -/,
      (k!"getMaxSyncJumpWidth", .get k!"maxSyncJumpWidth") /- 859 -/,
      (k!"setMaxSyncJumpWidth", .set k!"maxSyncJumpWidth" false) /- 862 -/,
      (k!"getMinNumberOfTimeQuantaPerBit", .get k!"minNumberOfTimeQuantaPerBit") /- 866 -/,
      (k!"setMinNumberOfTimeQuantaPerBit", .set k!"minNumberOfTimeQuantaPerBit" false) /- 869 -/,
      (k!"getMinSamplePoint", .get k!"minSamplePoint") /- 873 -/,
      (k!"setMinSamplePoint", .set k!"minSamplePoint" false) /- 876 -/,
      (k!"getMinSyncJumpWidth", .get k!"minSyncJumpWidth") /- 880 -/,
      (k!"setMinSyncJumpWidth", .set k!"minSyncJumpWidth" false) /- 883 -/]⟩
 (.node (.node (.node .nil
    -- M2/AUTOSARTemplates/CommonStructure/ServiceNeeds.py:2944
    k!"DoIpRoutingActivationConfirmationNeeds" ⟨false, some (2, [.sup 2, .field k!"dataLengthRequest" .none, .field k!"dataLengthResponse" .none, .field k!"routingActivationType" .none]),
     [(k!"getDataLengthRequest", .get k!"dataLengthRequest") /- 2972 -/,
      (k!"setDataLengthRequest", .set k!"dataLengthRequest" true) /- 2981 -/,
      (k!"getDataLengthResponse", .get k!"dataLengthResponse") /- 2996 -/,
      (k!"setDataLengthResponse", .set k!"dataLengthResponse" true) /- 3005 -/,
      (k!"getRoutingActivationType", .get k!"routingActivationType") /- 3020 -/,
      (k!"setRoutingActivationType", .set k!"routingActivationType" true) /- 3029 -/]⟩
    .nil)
   -- M2/AUTOSARTemplates/SWComponentTemplate/Components/InstanceRefs.py:433
   k!"InnerPortGroupInCompositionInstanceRef" ⟨false, some (0, [.sup 0, .field k!"baseRef" .none, .field k!"contextRefs" .nil, .field k!"targetRef" .none]),
     [(k!"getBaseRef", .get k!"baseRef") /- 455 -/,
      (k!"setBaseRef", .set k!"baseRef" false) /- 458 -/,
      (k!"getContextRefs", .get k!"contextRefs") /- 462 -/,
      (k!"addContextRefs", .add k!"contextRefs" false false) /- 465 -/,
      (k!"getTargetRef", .get k!"targetRef") /- 469 -/,
      (k!"setTargetRef", .set k!"targetRef" false) /- 472 -/]⟩
   (.node .nil
    -- M2/AUTOSARTemplates/SWComponentTemplate/ImplicitCommunicationBehavior/InstanceRefs.py:227
    k!"RunnableEntityInCompositionInstanceRef" ⟨false, some (0, [.sup 0, .field k!"baseRef" .none, .field k!"contextSwComponentPrototypeRefs" .nil, .field k!"targetRunnableEntityRef" .none]),
     [(k!"getBaseRef", .get k!"baseRef") /- 261 -/,
      (k!"setBaseRef", .set k!"baseRef" true) /- 270 -/,
      (k!"getContextSwComponentPrototypeRefs", .get k!"contextSwComponentPrototypeRefs") /- 285 -/,
      (k!"addContextSwComponentPrototypeRef", .add k!"contextSwComponentPrototypeRefs" false false) /- 294 -/,
      (k!"getTargetRunnableEntityRef", .get k!"targetRunnableEntityRef") /- 308 -/,
      (k!"setTargetRunnableEntityRef", .set k!"targetRunnableEntityRef" true) /- 317 -/]⟩
    .nil))
  -- M2/AUTOSARTemplates/SystemTemplate/Fibex/FibexCore/CoreCommunication.py:2139
  k!"SecureCommunicationAuthenticationProps" ⟨false, some (2, [.sup 2, .field k!"authInfoTxLength" .none]),
     [(k!"getAuthInfoTxLength", .get k!"authInfoTxLength") /- 2161 -/,
      (k!"setAuthInfoTxLength", .set k!"authInfoTxLength" true) /- 2167 -/]⟩
  (.node (.node .nil
    -- M2/AUTOSARTemplates/SWComponentTemplate/Datatype/DataPrototypes.py:154
    k!"ApplicationCompositeElementDataPrototype" ⟨true, some (2, [.guard k!"ApplicationCompositeElementDataPrototype", .sup 2, .field k!"typeTRef" .none]),
     [(k!"getTypeTRef", .get k!"typeTRef") /- 173 -/,
      (k!"setTypeTRef", .set k!"typeTRef" false) /- 176 -/]⟩
    .nil)
   -- M2/AUTOSARTemplates/SystemTemplate/Fibex/Fibex4Can/CanTopology.py:166
   k!"CanControllerFdConfigurationRequirements" ⟨false, some (0, [.sup 0, .field k!"maxNumberOfTimeQuantaPerBit" .none, .field k!"maxSamplePoint" .none, .field k!"maxSyncJumpWidth" .none, .field k!"maxTrcvDelayCompensationOffset" .none, .field k!"minNumberOfTimeQuantaPerBit" .none, .field k!"minSamplePoint" .none, .field k!"minSyncJumpWidth" .none, .field k!"minTrcvDelayCompensationOffset" .none, .field k!"paddingValue" .none, .field k!"txBitRateSwitch" .none]),
     [(k!"getMaxNumberOfTimeQuantaPerBit", .get k!"maxNumberOfTimeQuantaPerBit") /- 210 -/,
      (k!"setMaxNumberOfTimeQuantaPerBit", .set k!"maxNumberOfTimeQuantaPerBit" true) /- 213 -/,
      (k!"getMaxSamplePoint", .get k!"maxSamplePoint") /- 218 -/,
      (k!"setMaxSamplePoint", .set k!"maxSamplePoint" true) /- 221 -/,
      (k!"getMaxSyncJumpWidth", .get k!"maxSyncJumpWidth") /- 226 -/,
      (k!"setMaxSyncJumpWidth", .set k!"maxSyncJumpWidth" true) /- 229 -/,
      (k!"getMaxTrcvDelayCompensationOffset", .get k!"maxTrcvDelayCompensationOffset") /- 234 -/,
      (k!"setMaxTrcvDelayCompensationOffset", .set k!"maxTrcvDelayCompensationOffset" true) /- 237 -/,
      (k!"getMinNumberOfTimeQuantaPerBit", .get k!"minNumberOfTimeQuantaPerBit") /- 242 -/,
      (k!"setMinNumberOfTimeQuantaPerBit", .set k!"minNumberOfTimeQuantaPerBit" true) /- 245 -/,
      (k!"getMinSamplePoint", .get k!"minSamplePoint") /- 250 -/,
      (k!"setMinSamplePoint", .set k!"minSamplePoint" true) /- 253 -/,
      (k!"getMinSyncJumpWidth", .get k!"minSyncJumpWidth") /- 258 -/,
      (k!"setMinSyncJumpWidth", .set k!"minSyncJumpWidth" true) /- 261 -/,
      (k!"getMinTrcvDelayCompensationOffset", .get k!"minTrcvDelayCompensationOffset") /- 266 -/,
      (k!"setMinTrcvDelayCompensationOffset", .set k!"minTrcvDelayCompensationOffset" true) /- 269 -/,
      (k!"getPaddingValue", .get k!"paddingValue") /- 274 -/,
      (k!"setPaddingValue", .set k!"paddingValue" true) /- 277 -/,
      (k!"getTxBitRateSwitch", .get k!"txBitRateSwitch") /- 282 -/,
      (k!"setTxBitRateSwitch", .set k!"txBitRateSwitch" true) /- 285 -/]⟩
   (.node .nil
    -- M2/AUTOSARTemplates/SystemTemplate/Fibex/Fibex4Can/CanTopology.py:464
    k!"CanControllerXlConfigurationRequirements" ⟨false, some (0, [.sup 0, .field k!"errorSignalingEnabled" .none, .field k!"maxNumberOfTimeQuantaPerBit" .none, .field k!"maxPwmL" .none, .field k!"maxPwmO" .none, .field k!"maxPwmS" .none, .field k!"maxSamplePoint" .none, .field k!"maxSyncJumpWidth" .none, .field k!"maxTrcvDelayCompensationOffset" .none, .field k!"minNumberOfTimeQuantaPerBit" .none, .field k!"minPwmL" .none, .field k!"minPwmO" .none, .field k!"minPwmS" .none, .field k!"minSamplePoint" .none, .field k!"minSyncJumpWidth" .none, .field k!"minTrcvDelayCompensationOffset" .none, .field k!"trcvPwmModeEnabled" .none]),
     [(k!"getErrorSignalingEnabled", .get k!"errorSignalingEnabled") /- 556 -/,
      (k!"setErrorSignalingEnabled", .set k!"errorSignalingEnabled" true) /- 560 -/,
      (k!"getMaxNumberOfTimeQuantaPerBit", .get k!"maxNumberOfTimeQuantaPerBit") /- 567 -/,
      (k!"setMaxNumberOfTimeQuantaPerBit", .set k!"maxNumberOfTimeQuantaPerBit" true) /- 571 -/,
      (k!"getMaxPwmL", .get k!"maxPwmL") /- 578 -/,
      (k!"setMaxPwmL", .set k!"maxPwmL" true) /- 582 -/,
      (k!"getMaxPwmO", .get k!"maxPwmO") /- 589 -/,
      (k!"setMaxPwmO", .set k!"maxPwmO" true) /- 593 -/,
      (k!"getMaxPwmS", .get k!"maxPwmS") /- 600 -/,
      (k!"setMaxPwmS", .set k!"maxPwmS" true) /- 604 -/,
      (k!"getMaxSamplePoint", .get k!"maxSamplePoint") /- 611 -/,
      (k!"setMaxSamplePoint", .set k!"maxSamplePoint" true) /- 615 -/,
      (k!"getMaxSyncJumpWidth", .get k!"maxSyncJumpWidth") /- 622 -/,
      (k!"setMaxSyncJumpWidth", .set k!"maxSyncJumpWidth" true) /- 626 -/,
      (k!"getMaxTrcvDelayCompensationOffset", .get k!"maxTrcvDelayCompensationOffset") /- 633 -/,
      (k!"setMaxTrcvDelayCompensationOffset", .set k!"maxTrcvDelayCompensationOffset" true) /- 637 -/,
      (k!"getMinNumberOfTimeQuantaPerBit", .get k!"minNumberOfTimeQuantaPerBit") /- 644 -/,
      (k!"setMinNumberOfTimeQuantaPerBit", .set k!"minNumberOfTimeQuantaPerBit" true) /- 648 -/,
      (k!"getMinPwmL", .get k!"minPwmL") /- 655 -/,
      (k!"setMinPwmL", .set k!"minPwmL" true) /- 659 -/,
      (k!"getMinPwmO", .get k!"minPwmO") /- 666 -/,
      (k!"setMinPwmO", .set k!"minPwmO" true) /- 670 -/,
      (k!"getMinPwmS", .get k!"minPwmS") /- 677 -/,
      (k!"setMinPwmS", .set k!"minPwmS" true) /- 681 -/,
      (k!"getMinSamplePoint", .get k!"minSamplePoint") /- 688 -/,
      (k!"setMinSamplePoint", .set k!"minSamplePoint" true) /- 692 -/,
      (k!"getMinSyncJumpWidth", .get k!"minSyncJumpWidth") /- 699 -/,
      (k!"setMinSyncJumpWidth", .set k!"minSyncJumpWidth" true) /- 703 -/,
      (k!"getMinTrcvDelayCompensationOffset", .get k!"minTrcvDelayCompensationOffset") /- 710 -/,
      (k!"setMinTrcvDelayCompensationOffset", .set k!"minTrcvDelayCompensationOffset" true) /- 714 -/,
      (k!"getTrcvPwmModeEnabled", .get k!"trcvPwmModeEnabled") /- 721 -/,
      (k!"setTrcvPwmModeEnabled", .set k!"trcvPwmModeEnabled" true) /- 725 -/]⟩
    .nil))))

def accTable120 : Bst (ClassAcc) :=
 (.node (.node (.node (.node .nil
    -- M2/AUTOSARTemplates/CommonStructure/ServiceNeeds.py:2843
    k!"DoIpRoutingActivationAuthenticationNeeds" ⟨false, some (2, [.sup 2, .field k!"dataLengthRequest" .none, .field k!"dataLengthResponse" .none, .field k!"routingActivationType" .none]),
     [(k!"getDataLengthRequest", .get k!"dataLengthRequest") /- 2871 -/,
      (k!"setDataLengthRequest", .set k!"dataLengthRequest" true) /- 2880 -/,
      (k!"getDataLengthResponse", .get k!"dataLengthResponse") /- 2895 -/,
      (k!"setDataLengthResponse", .set k!"dataLengthResponse" true) /- 2904 -/,
      (k!"getRoutingActivationType", .get k!"routingActivationType") /- 2919 -/,
      (k!"setRoutingActivationType", .set k!"routingActivationType" true) /- 2928 -/]⟩
    .nil)
   -- M2/AUTOSARTemplates/SystemTemplate/InstanceRefs.py:9
   k!"VariableDataPrototypeInSystemInstanceRef" ⟨false, some (0, [.sup 0, .field k!"baseRef" .none, .field k!"contextComponentRefs" .nil, .field k!"contextCompositionRef" .none, .field k!"contextPortRef" .none, .field k!"targetDataPrototypeRef" .none]),
     [(k!"getBaseRef", .get k!"baseRef") /- 37 -/,
      (k!"setBaseRef", .set k!"baseRef" false) /- 40 -/,
      (k!"getContextComponentRefs", .get k!"contextComponentRefs") /- 44 -/,
      (k!"addContextComponentRef", .add k!"contextComponentRefs" false false) /- 47 -/,
      (k!"getContextCompositionRef", .get k!"contextCompositionRef") /- 51 -/,
      (k!"setContextCompositionRef", .set k!"contextCompositionRef" false) /- 54 -/,
      (k!"getContextPortRef", .get k!"contextPortRef") /- 58 -/,
      (k!"setContextPortRef", .set k!"contextPortRef" false) /- 61 -/,
      (k!"getTargetDataPrototypeRef", .get k!"targetDataPrototypeRef") /- 65 -/,
      (k!"setTargetDataPrototypeRef", .set k!"targetDataPrototypeRef" false) /- 68 -/]⟩
   (.node .nil
    -- M2/AUTOSARTemplates/SystemTemplate/SWmapping.py:47
    k!"ApplicationPartitionToEcuPartitionMapping" ⟨false, some (2, [.sup 2, .field k!"applicationPartitionRefs" .nil, .field k!"ecuPartitionRef" .none]),
     [(k!"getApplicationPartitionRefs", .get k!"applicationPartitionRefs") /- 67 -/,
      (k!"addApplicationPartitionRef", .add k!"applicationPartitionRefs" true false) /- 70 -/,
      (k!"getEcuPartitionRef", .get k!"ecuPartitionRef") /- 75 -/,
      (k!"setEcuPartitionRef", .set k!"ecuPartitionRef" true) /- 78 -/]⟩
    .nil))
  -- M2/AUTOSARTemplates/SWComponentTemplate/SwcInternalBehavior/InstanceRefsUsage.py:13
  k!"ArVariableInImplementationDataInstanceRef" ⟨false, some (0, [.sup 0, .field k!"contextDataPrototypeRefs" .nil, .field k!"portPrototypeRef" .none, .field k!"rootVariableDataPrototypeRef" .none, .field k!"targetDataPrototypeRef" .none]),
     [(k!"getContextDataPrototypeRefs", .get k!"contextDataPrototypeRefs") /- 38 -/,
      (k!"setContextDataPrototypeRefs", .set k!"contextDataPrototypeRefs" false) /- 47 -/,
      (k!"getPortPrototypeRef", .get k!"portPrototypeRef") /- 60 -/,
      (k!"setPortPrototypeRef", .set k!"portPrototypeRef" false) /- 69 -/,
      (k!"getRootVariableDataPrototypeRef", .get k!"rootVariableDataPrototypeRef") /- 82 -/,
      (k!"setRootVariableDataPrototypeRef", .set k!"rootVariableDataPrototypeRef" false) /- 91 -/,
      (k!"getTargetDataPrototypeRef", .get k!"targetDataPrototypeRef") /- 104 -/,
      (k!"setTargetDataPrototypeRef", .set k!"targetDataPrototypeRef" false) /- 113 -/]⟩
  (.node (.node .nil
    -- M2/AUTOSARTemplates/SystemTemplate/NetworkManagement.py:397
    k!"J1939NmAddressConfigurationCapabilityEnum" ⟨false, some (0, [.sup 1]),
     []⟩
    .nil)
   -- M2/AUTOSARTemplates/CommonStructure/MeasurementCalibrationSupport/__init__.py:632
   k!"ImplementationElementInParameterInstanceRef" ⟨false, some (0, [.sup 0, .field k!"contextRef" .none, .field k!"targetRef" .none]),
     [(k!"getContextRef", .get k!"contextRef") /- 660 -/,
      (k!"setContextRef", .set k!"contextRef" true) /- 670 -/,
      (k!"getTargetRef", .get k!"targetRef") /- 685 -/,
      (k!"setTargetRef", .set k!"targetRef" true) /- 695 -/]⟩
   (.node .nil
    -- M2/AUTOSARTemplates/AdaptivePlatform/PlatformModuleDeployment/AdaptiveModule/PlatformModuleEthernetEndpointConfiguration.py:16
    k!"PlatformModuleEthernetEndpointConfiguration" ⟨false, some (2, [.sup 2, .field k!"communications" .none, .field k!"ipv4MulticastIps" .none, .field k!"ipv6MulticastIps" .none]),
     [(k!"getCommunications", .get k!"communications") /- 47 -/,
      (k!"setCommunications", .set k!"communications" false) /- 50 -/,
      (k!"getIpv4MulticastIps", .get k!"ipv4MulticastIps") /- 54 -/,
      (k!"setIpv4MulticastIps", .set k!"ipv4MulticastIps" false) /- 57 -/,
      (k!"getIpv6MulticastIps", .get k!"ipv6MulticastIps") /- 61 -/,
      (k!"setIpv6MulticastIps", .set k!"ipv6MulticastIps" false) /- 64 -/]⟩
    .nil)))
 -- M2/AUTOSARTemplates/SystemTemplate/Fibex/Fibex4Can/CanTopology.py:733
 k!"AbstractCanCommunicationControllerAttributes" ⟨true, some (0, [.guard k!"AbstractCanCommunicationControllerAttributes", .sup 0, .field k!"canControllerFdAttributes" .none, .field k!"canControllerFdRequirements" .none, .field k!"canControllerXlAttributes" .none, .field k!"canControllerXlRequirements" .none]),
     [(k!"getCanControllerFdAttributes", .get k!"canControllerFdAttributes") /- 768 -/,
      (k!"setCanControllerFdAttributes", .set k!"canControllerFdAttributes" true) /- 772 -/,
      (k!"getCanControllerFdRequirements", .get k!"canControllerFdRequirements") /- 779 -/,
      (k!"setCanControllerFdRequirements", .set k!"canControllerFdRequirements" true) /- 783 -/,
      (k!"getCanControllerXlAttributes", .get k!"canControllerXlAttributes") /- 790 -/,
      (k!"setCanControllerXlAttributes", .set k!"canControllerXlAttributes" true) /- 794 -/,
      (k!"getCanControllerXlRequirements", .get k!"canControllerXlRequirements") /- 801 -/,
      (k!"setCanControllerXlRequirements", .set k!"canControllerXlRequirements" true) /- 805 -/]⟩
 (.node (.node (.node .nil
    -- M2/AUTOSARTemplates/SWComponentTemplate/ImplicitCommunicationBehavior/InstanceRefs.py:333
    k!"VariableDataPrototypeInCompositionInstanceRef" ⟨false, some (0, [.sup 0, .field k!"baseRef" .none, .field k!"contextPortPrototypeRef" .none, .field k!"contextSwComponentPrototypeRefs" .nil, .field k!"targetVariableDataPrototypeRef" .none]),
     [(k!"getBaseRef", .get k!"baseRef") /- 372 -/,
      (k!"setBaseRef", .set k!"baseRef" true) /- 381 -/,
      (k!"getContextPortPrototypeRef", .get k!"contextPortPrototypeRef") /- 396 -/,
      (k!"setContextPortPrototypeRef", .set k!"contextPortPrototypeRef" true) /- 405 -/,
      (k!"getContextSwComponentPrototypeRefs", .get k!"contextSwComponentPrototypeRefs") /- 420 -/,
      (k!"addContextSwComponentPrototypeRef", .add k!"contextSwComponentPrototypeRefs" false false) /- 429 -/,
      (k!"getTargetVariableDataPrototypeRef", .get k!"targetVariableDataPrototypeRef") /- 443 -/,
      (k!"setTargetVariableDataPrototypeRef", .set k!"targetVariableDataPrototypeRef" true) /- 452 -/]⟩
    .nil)
   -- M2/AUTOSARTemplates/SystemTemplate/Transformer/__init__.py:1260
   k!"DataPrototypeInClientServerInterfaceInstanceRef" ⟨false, some (0, [.sup 0, .field k!"baseRef" .none, .field k!"contextDataPrototypeInCsRefs" .nil, .field k!"rootDataPrototypeInCsRef" .none, .field k!"targetDataPrototypeInCsRef" .none]),
     [(k!"getBaseRef", .get k!"baseRef") /- 1294 -/,
      (k!"setBaseRef", .set k!"baseRef" true) /- 1300 -/,
      (k!"getContextDataPrototypeInCsRefs", .get k!"contextDataPrototypeInCsRefs") /- 1309 -/,
      (k!"addContextDataPrototypeInCsRefs", .add k!"contextDataPrototypeInCsRefs" true false) /- 1315 -/,
      (k!"getRootDataPrototypeInCsRef", .get k!"rootDataPrototypeInCsRef") /- 1324 -/,
      (k!"setRootDataPrototypeInCsRef", .set k!"rootDataPrototypeInCsRef" true) /- 1330 -/,
      (k!"getTargetDataPrototypeInCsRef", .get k!"targetDataPrototypeInCsRef") /- 1339 -/,
      (k!"setTargetDataPrototypeInCsRef", .set k!"targetDataPrototypeInCsRef" true) /- 1345 -/]⟩
   (.node .nil
    -- M2/AUTOSARTemplates/SystemTemplate/Transformer/__init__.py:1355
    k!"ImplementationDataTypeElementInPortInterfaceRef" ⟨false, some (0, [.sup 0, .field k!"contextImplementationDataElementRefs" .nil, .field k!"rootDataPrototypeRef" .none, .field k!"targetImplementationDataTypeElementRef" .none]),
     [(k!"getContextImplementationDataElementRefs", .get k!"contextImplementationDataElementRefs") /- 1384 -/,
      (k!"addContextImplementationDataElementRefs", .add k!"contextImplementationDataElementRefs" true false) /- 1390 -/,
      (k!"getRootDataPrototypeRef", .get k!"rootDataPrototypeRef") /- 1399 -/,
      (k!"setRootDataPrototypeRef", .set k!"rootDataPrototypeRef" true) /- 1405 -/,
      (k!"getTargetImplementationDataTypeElementRef", .get k!"targetImplementationDataTypeElementRef") /- 1414 -/,
      (k!"setTargetImplementationDataTypeElementRef", .set k!"targetImplementationDataTypeElementRef" true) /- 1420 -/]⟩
    .nil))
  -- M2/AUTOSARTemplates/SWComponentTemplate/ImplicitCommunicationBehavior/InstanceRefs.py:15
  k!"InnerDataPrototypeGroupInCompositionInstanceRef" ⟨false, some (0, [.sup 0, .field k!"baseRef" .none, .field k!"contextSwComponentPrototypeRefs" .nil, .field k!"targetDataPrototypeGroupRef" .none]),
     [(k!"getBaseRef", .get k!"baseRef") /- 49 -/,
      (k!"setBaseRef", .set k!"baseRef" true) /- 58 -/,
      (k!"getContextSwComponentPrototypeRefs", .get k!"contextSwComponentPrototypeRefs") /- 73 -/,
      (k!"addContextSwComponentPrototypeRef", .add k!"contextSwComponentPrototypeRefs" false false) /- 82 -/,
      (k!"getTargetDataPrototypeGroupRef", .get k!"targetDataPrototypeGroupRef") /- 96 -/,
      (k!"setTargetDataPrototypeGroupRef", .set k!"targetDataPrototypeGroupRef" true) /- 105 -/]⟩
  (.node (.node .nil
    -- M2/AUTOSARTemplates/SWComponentTemplate/ImplicitCommunicationBehavior/InstanceRefs.py:121
    k!"InnerRunnableEntityGroupInCompositionInstanceRef" ⟨false, some (0, [.sup 0, .field k!"baseRef" .none, .field k!"contextSwComponentPrototypeRefs" .nil, .field k!"targetRunnableEntityGroupRef" .none]),
     [(k!"getBaseRef", .get k!"baseRef") /- 155 -/,
      (k!"setBaseRef", .set k!"baseRef" true) /- 164 -/,
      (k!"getContextSwComponentPrototypeRefs", .get k!"contextSwComponentPrototypeRefs") /- 179 -/,
      (k!"addContextSwComponentPrototypeRef", .add k!"contextSwComponentPrototypeRefs" false false) /- 188 -/,
      (k!"getTargetRunnableEntityGroupRef", .get k!"targetRunnableEntityGroupRef") /- 202 -/,
      (k!"setTargetRunnableEntityGroupRef", .set k!"targetRunnableEntityGroupRef" true) /- 211 -/]⟩
    .nil)
   -- M2/AUTOSARTemplates/SystemTemplate/Transformer/__init__.py:1165
   k!"DataPrototypeInSenderReceiverInterfaceInstanceRef" ⟨false, some (0, [.sup 0, .field k!"baseRef" .none, .field k!"contextDataPrototypeInSrRefs" .nil, .field k!"rootDataPrototypeInSrRef" .none, .field k!"targetDataPrototypeInSrRef" .none]),
     [(k!"getBaseRef", .get k!"baseRef") /- 1199 -/,
      (k!"setBaseRef", .set k!"baseRef" true) /- 1205 -/,
      (k!"getContextDataPrototypeInSrRefs", .get k!"contextDataPrototypeInSrRefs") /- 1214 -/,
      (k!"addContextDataPrototypeInSrRefs", .add k!"contextDataPrototypeInSrRefs" true false) /- 1220 -/,
      (k!"getRootDataPrototypeInSrRef", .get k!"rootDataPrototypeInSrRef") /- 1229 -/,
      (k!"setRootDataPrototypeInSrRef", .set k!"rootDataPrototypeInSrRef" true) /- 1235 -/,
      (k!"getTargetDataPrototypeInSrRef", .get k!"targetDataPrototypeInSrRef") /- 1244 -/,
      (k!"setTargetDataPrototypeInSrRef", .set k!"targetDataPrototypeInSrRef" true) /- 1250 -/]⟩
   (.node .nil
    -- M2/AUTOSARTemplates/SWComponentTemplate/PortInterface/InstanceRefs.py:11
    k!"ApplicationCompositeElementInPortInterfaceInstanceRef" ⟨false, some (0, [.sup 0, .field k!"baseRef" .none, .field k!"contextDataPrototypeRef" .none, .field k!"rootDataPrototypeRef" .none, .field k!"targetDataPrototypeRef" .none]),
     [(k!"getBaseRef", .get k!"baseRef") /- 36 -/,
      (k!"setBaseRef", .set k!"baseRef" false) /- 39 -/,
      (k!"getContextDataPrototypeRef", .get k!"contextDataPrototypeRef") /- 43 -/,
      (k!"setContextDataPrototypeRef", .set k!"contextDataPrototypeRef" false) /- 46 -/,
      (k!"getRootDataPrototypeRef", .get k!"rootDataPrototypeRef") /- 50 -/,
      (k!"setRootDataPrototypeRef", .set k!"rootDataPrototypeRef" false) /- 53 -/,
      (k!"getTargetDataPrototypeRef", .get k!"targetDataPrototypeRef") /- 57 -/,
      (k!"setTargetDataPrototypeRef", .set k!"targetDataPrototypeRef" false) /- 60 -/]⟩
    .nil))))

-- M2/AUTOSARTemplates/CommonStructure/ServiceNeeds.py:747
def accTable121 : Bst (ClassAcc) :=
 .node accTable119 k!"DiagnosticServiceRequestCallbackTypeEnum" ⟨false, some (0, [.sup 1]),
     []⟩ accTable120

-- M2/AUTOSARTemplates/CommonStructure/ServiceNeeds.py:4590
def accTable122 : Bst (ClassAcc) :=
 .node accTable118 k!"VerificationStatusIndicationModeEnum" ⟨false, some (0, [.sup 1]),
     []⟩ accTable121

-- M2/AUTOSARTemplates/SWComponentTemplate/SwcInternalBehavior/RTEEvents.py:83
def accTable123 : Bst (ClassAcc) :=
 .node accTable115 k!"AsynchronousServerCallReturnsEvent" ⟨false, some (2, [.sup 2, .field k!"eventSourceRef" .none]),
     [(k!"getEventSourceRef", .get k!"eventSourceRef") /- 98 -/,
      (k!"setEventSourceRef", .set k!"eventSourceRef" false) /- 107 -/]⟩ accTable122

-- M2/AUTOSARTemplates/SWComponentTemplate/Components/InstanceRefs.py:184
def accTable124 : Bst (ClassAcc) :=
 .node accTable108 k!"TriggerInAtomicSwcInstanceRef" ⟨true, some (0, [.guard k!"TriggerInAtomicSwcInstanceRef", .sup 0, .field k!"baseRef" .none, .field k!"contextPortRef" .none, .field k!"targetRef" .none]),
     [(k!"getBaseRef", .get k!"baseRef") /- 223 -/,
      (k!"setBaseRef", .set k!"baseRef" true) /- 233 -/,
      (k!"getContextPortRef", .get k!"contextPortRef") /- 249 -/,
      (k!"setContextPortRef", .set k!"contextPortRef" true) /- 259 -/,
      (k!"getTargetRef", .get k!"targetRef") /- 275 -/,
      (k!"setTargetRef", .set k!"targetRef" true) /- 285 -/]⟩ accTable123

-- M2/AUTOSARTemplates/BswModuleTemplate/BswBehavior/__init__.py:2066
def accTable125 : Bst (ClassAcc) :=
 .node accTable93 k!"BswServiceDependencyIdent" ⟨false, some (2, [.sup 2]),
     []⟩ accTable124

-- M2/AUTOSARTemplates/SWComponentTemplate/SwcInternalBehavior/IncludedDataTypes.py:12
def accTable126 : Bst (ClassAcc) :=
 .node accTable62 k!"IncludedDataTypeSet" ⟨false, some (0, [.sup 0, .field k!"dataTypeRefs" .nil, .field k!"literalPrefix" .none]),
     [(k!"addDataTypeRef", .add k!"dataTypeRefs" true false) /- 34 -/,
      (k!"getDataTypeRefs", .get k!"dataTypeRefs") /- 51 -/,
      (k!"getLiteralPrefix", .get k!"literalPrefix") /- 62 -/,
      (k!"setLiteralPrefix", .set k!"literalPrefix" true) /- 73 -/]⟩ accTable125

/-- class name with its constructor and methods -/
def accTable : Bst (ClassAcc) := accTable126

end Verif.Gen
