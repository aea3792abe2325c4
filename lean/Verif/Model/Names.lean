import Verif.Text
import Verif.Model.DataLink
import Verif.Model.ObjectList
/-!
# btypes: names of object types, properties, services and enumerations; JSON of object tables

Texts are lists of character codes.
-/

namespace Bac

/-! ## btypes/object.go -/

/-- btypes/object.go:58-73 `objTypeMap`. -/
def objTypeMap : List (UInt16 × List Nat) := [
  (0, t!"AnalogInput"), (1, t!"AnalogOutput"), (2, t!"AnalogValue"), (3, t!"BinaryInput"),
  (4, t!"BinaryOutput"), (5, t!"BinaryValue"), (8, t!"Device"), (10, t!"File"),
  (15, t!"NotificationClass"), (19, t!"MultiStateValue"), (13, t!"MultiStateInput"),
  (14, t!"MultiStateOutput"), (20, t!"TrendLog"), (40, t!"CharacterString")]

/-- btypes/object.go:75-90 `objStrTypeMap`. -/
def objStrTypeMap : List (List Nat × UInt16) := [
  (t!"AnalogInput", 0), (t!"AnalogOutput", 1), (t!"AnalogValue", 2), (t!"BinaryInput", 3),
  (t!"BinaryOutput", 4), (t!"BinaryValue", 5), (t!"Device", 8), (t!"File", 10),
  (t!"NotificationClass", 15), (t!"MultiStateValue", 19), (t!"MultiStateInput", 13),
  (t!"MultiStateOutput", 14), (t!"TrendLog", 20), (t!"CharacterString", 40)]

/-- btypes/object.go:92-98 `GetType`: 0 for an unknown name. -/
def getType (s : List Nat) : UInt16 := (mapGet s objStrTypeMap).getD 0

/-- btypes/object.go:100-106 `ObjectType.String`. -/
def objectTypeString (t : UInt16) : List Nat :=
  match mapGet t objTypeMap with
  | some s => s
  | none => t!"Unknown (" ++ decimal t.toNat ++ t!")"

/-! ## btypes/object_map.go -/

/-- A map from names to maps from instances to objects, as passed to and from the
package json.  btypes/object_map.go:20, 34. -/
abbrev NamedMap := List (List Nat × List (UInt32 × Object))

/-- Copying one map into another, entry by entry.  btypes/object_map.go:19-48. -/
def mapCopy {κ α : Type} [DecidableEq κ] (dst src : List (κ × α)) : List (κ × α) :=
  src.foldl (fun m e => mapSet e.1 e.2 m) dst

/-- btypes/object_map.go:19-29: the map given to `json.Marshal`. -/
def marshalMap (om : ObjectMap) : NamedMap :=
  om.foldl (fun m e =>
    let key := objectTypeString e.1
    mapSet key (mapCopy ((mapGet key m).getD []) e.2) m) []

/-- btypes/object_map.go:40-48: filling the table from the map `json.Unmarshal` gave.
`none` is the nil map: writing to it panics.  The package json is not modelled: the
map read is taken as given (see C59 for what is assumed of it). -/
def unmarshalMap (om : Option ObjectMap) (m : NamedMap) : Outcome ObjectMap :=
  match om, m with
  | none, [] => .ok []
  | none, _ :: _ => .panic .nilMapWrite
  | some om, m => .ok (m.foldl (fun om e =>
      let key := getType e.1
      mapSet key (mapCopy ((mapGet key om).getD []) e.2) om) om)

/-! ## btypes/property.go -/

/-- btypes/property.go:546-560 `propertyTypeMapping`. -/
def propertyTypeMapping : List (List Nat × UInt32) := [
  (t!"AllProperties", 8), (t!"Description", 28), (t!"FileSize", 42), (t!"FileType", 43),
  (t!"ModelName", 70), (t!"ObjectIdentifier", 75), (t!"ObjectList", 76), (t!"ObjectName", 77),
  (t!"ObjectReference", 78), (t!"ObjectType", 79), (t!"PresentValue", 85), (t!"Units", 117),
  (t!"PriorityArray", 87)]

/-- btypes/property.go:563-577 `propertybtypestrMapping`. -/
def propertyStrMapping : List (UInt32 × List Nat) := [
  (8, t!"All Properties"), (28, t!"Description"), (42, t!"File Size"), (43, t!"File Type"),
  (70, t!"Model Name"), (75, t!"Object Identifier"), (76, t!"Object List"), (77, t!"Object Name"),
  (78, t!"Object Reference"), (79, t!"Object Type"), (85, t!"Present Value"), (117, t!"PropUnits"),
  (87, t!"Priority Array")]

/-- btypes/property.go:601-607 `Get`: `none` is the error. -/
def propertyGet (s : List Nat) : Option UInt32 := mapGet s propertyTypeMapping

/-- btypes/property.go:610-616 `String`. -/
def propertyString (p : UInt32) : List Nat :=
  match mapGet p propertyStrMapping with
  | some s => s ++ t!" (" ++ decimal p.toNat ++ t!")"
  | none => t!"Unknown"

/-! ## btypes/services/services.go -/

/-- btypes/services/services.go:12-17 `Supported`; the field Supported is never set. -/
structure Service where
  name : List Nat
  number : UInt16
  index : Nat
  deriving DecidableEq, Repr

/-- btypes/services/services.go:19-285: the keys of `supportedList`; the value of each
is its name. -/
def supportedList : List Service := [
   ⟨t!"acknowledgeAlarm", 0, 0⟩,
   ⟨t!"confirmedCOVNotification", 1, 1⟩,
   ⟨t!"confirmedEventNotification", 2, 2⟩,
   ⟨t!"getAlarmSummary", 3, 3⟩,
   ⟨t!"getEnrollmentSummary", 4, 4⟩,
   ⟨t!"subscribeCOV", 5, 5⟩,
   ⟨t!"atomicReadFile", 6, 6⟩,
   ⟨t!"atomicWriteFile", 7, 7⟩,
   ⟨t!"addListElement", 8, 8⟩,
   ⟨t!"removeListElement", 9, 9⟩,
   ⟨t!"createObject", 10, 10⟩,
   ⟨t!"deleteObject", 11, 11⟩,
   ⟨t!"readProperty", 12, 12⟩,
   ⟨t!"readPropertyMultiple", 14, 13⟩,
   ⟨t!"writeProperty", 15, 14⟩,
   ⟨t!"writePropertyMultiple", 16, 15⟩,
   ⟨t!"deviceCommunicationControl", 17, 16⟩,
   ⟨t!"confirmedPrivateTransfer", 18, 17⟩,
   ⟨t!"confirmedTextMessage", 19, 18⟩,
   ⟨t!"reinitializeDevice", 20, 19⟩,
   ⟨t!"vtOpen", 21, 20⟩,
   ⟨t!"vtClose", 22, 21⟩,
   ⟨t!"vtData", 23, 22⟩,
   ⟨t!"iAm", 26, 23⟩,
   ⟨t!"iHave", 27, 24⟩,
   ⟨t!"unconfirmedCOVNotification", 28, 25⟩,
   ⟨t!"unconfirmedEventNotification", 29, 26⟩,
   ⟨t!"unconfirmedPrivateTransfer", 30, 27⟩,
   ⟨t!"unconfirmedTextMessage", 31, 28⟩,
   ⟨t!"timeSynchronization", 32, 29⟩,
   ⟨t!"whoHas", 33, 30⟩,
   ⟨t!"whoIs", 34, 31⟩,
   ⟨t!"readRange", 35, 32⟩,
   ⟨t!"utcTimeSynchronization", 36, 33⟩,
   ⟨t!"lifeSafetyOperation", 37, 34⟩,
   ⟨t!"subscribeCOVProperty", 38, 35⟩,
   ⟨t!"getEventInformation", 39, 36⟩,
   ⟨t!"writeGroup", 40, 37⟩]

/-- btypes/services/services.go:291-299 `GetType`; the order of the list stands for the
arbitrary order of the map. -/
def serviceGetType (order : List Service) (s : List Nat) : Option Service := order.find? (fun t => s = t.name)

/-- btypes/services/services.go:301-307 `GetString`. -/
def serviceGetString (t : Service) : List Nat :=
  if t ∈ supportedList then t.name else t!"Unknown (" ++ t.name ++ t!")"

/-! ## The functions generated by `stringer` -/

/-- One run of consecutive values: the names one after the other and where they start.
for example btypes/bacerr/errorclass_string.go:7 and on. -/
structure Run where
  first : Nat
  last : Nat
  name : List Nat
  index : List Nat

/-- The generated `String` methods: the slice of the names of the run the value is in,
the type's name and the number in parentheses otherwise.  Index and slice bounds are
checked.
btypes/bacerr/errorclass_string.go, btypes/bacerr/errorcode_string.go, btypes/ndpu/networkmessagetype_string.go, btypes/segmentation/segmentedtype_string.go, btypes/units/unit_string.go, from line 7 on. -/
def stringer (runs : List Run) (typ : List Nat) (i : Nat) : Outcome (List Nat) :=
  match runs.find? (fun r => r.first ≤ i ∧ i ≤ r.last) with
  | some r =>
    match r.index[i - r.first]?, r.index[i - r.first + 1]? with
    | some lo, some hi =>
      if lo ≤ hi ∧ hi ≤ r.name.length then .ok ((r.name.drop lo).take (hi - lo))
      else .panic .sliceBounds
    | _, _ => .panic .indexOutOfRange
  | none => .ok (typ ++ t!"(" ++ decimal i ++ t!")")

/-- btypes/units/unit_string.go:239-264: the tables generated by `stringer` for `Unit`. -/
def unitRuns : List Run := [
   { first := 0, last := 104,
     name := t!"SquareMetersSquareFeetMilliamperesAmperesOhmsVoltsKilovoltsMegavoltsVoltAmperesKilovoltAmp" ++
       t!"eresMegavoltAmperesVoltAmperesReactiveKilovoltAmperesReactiveMegavoltAmperesReactiveDegree" ++
       t!"sPhasePowerFactorJoulesKilojoulesWattHoursKilowattHoursBtusThermsTonHoursJoulesPerKilogram" ++
       t!"DryAirBtusPerPoundDryAirCyclesPerHourCyclesPerMinuteHertzGramsOfWaterPerKilogramDryAirPerc" ++
       t!"entRelativeHumidityMillimetersMetersInchesFeetWattsPerSquareFootWattsPerSquareMeterLumensL" ++
       t!"uxesFootCandlesKilogramsPoundsMassTonsKilogramsPerSecondKilogramsPerMinuteKilogramsPerHour" ++
       t!"PoundsMassPerMinutePoundsMassPerHourWattsKilowattsMegawattsBtusPerHourHorsepowerTonsRefrig" ++
       t!"erationPascalsKilopascalsBarsPoundsForcePerSquareInchCentimetersOfWaterInchesOfWaterMillim" ++
       t!"etersOfMercuryCentimetersOfMercuryInchesOfMercuryDegreesCelsiusDegreesKelvinDegreesFahrenh" ++
       t!"eitDegreeDaysCelsiusDegreeDaysFahrenheitYearsMonthsWeeksDaysHoursMinutesSecondsMetersPerSe" ++
       t!"condKilometersPerHourFeetPerSecondFeetPerMinuteMilesPerHourCubicFeetCubicMetersImperialGal" ++
       t!"lonsLitersUsGallonsCubicFeetPerMinuteCubicMetersPerSecondImperialGallonsPerMinuteLitersPer" ++
       t!"SecondLitersPerMinuteUSGallonsPerMinuteDegreesAngularDegreesCelsiusPerHourDegreesCelsiusPe" ++
       t!"rMinuteDegreesFahrenheitPerHourDegreesFahrenheitPerMinuteNoUnitsPartsPerMillionPartsPerBil" ++
       t!"lionPercentPercentPerSecondPerMinutePerSecondPsiPerDegreeFahrenheitRadiansRevolutionsPerMi" ++
       t!"nute",
     index := [
       0, 12, 22, 34, 41, 45, 50, 59, 68, 79, 94, 109, 128, 151, 174, 186, 197, 203, 213, 222, 235, 239, 245,
       253, 276, 294, 307, 322, 327, 356, 379, 390, 396, 402, 406, 424, 443, 449, 454, 465, 474, 484, 488,
       506, 524, 540, 559, 576, 581, 590, 599, 610, 620, 637, 644, 655, 659, 683, 701, 714, 734, 754, 769,
       783, 796, 813, 830, 850, 855, 861, 866, 870, 875, 882, 889, 904, 921, 934, 947, 959, 968, 979, 994,
       1000, 1009, 1027, 1047, 1071, 1086, 1101, 1119, 1133, 1154, 1177, 1201, 1227, 1234, 1249, 1264, 1271,
       1287, 1296, 1305, 1327, 1334, 1354] },
   { first := 115, last := 222,
     name := t!"SquareInchesSquareCentimetersBtusPerPoundCentimetersPoundsMassPerSecondDeltaDegreesFahrenh" ++
       t!"eitDeltaDegreesKelvinKilohmsMegohmsMillivoltsKilojoulesPerKilogramMegajoulesJoulesPerDegre" ++
       t!"eKelvinJoulesPerKilogramDegreeKelvinKilohertzMegahertzPerHourMilliwattsHectopascalsMilliba" ++
       t!"rsCubicMetersPerHourLitersPerHourKwHoursPerSquareMeterKwHoursPerSquareFootMegajoulesPerSqu" ++
       t!"areMeterMegajoulesPerSquareFootWattsPerSquareMeterDegreeKelvinCubicFeetPerSecondPercentObs" ++
       t!"curationPerFootPercentObscurationPerMeterMilliohmsMegawattHoursKiloBtusMegaBtusKilojoulesP" ++
       t!"erKilogramDryAirMegajoulesPerKilogramDryAirKilojoulesPerDegreeKelvinMegajoulesPerDegreeKel" ++
       t!"vinNewtonGramsPerSecondGramsPerMinuteTonsPerHourKiloBtusPerHourHundredthsSecondsMillisecon" ++
       t!"dsNewtonMetersMillimetersPerSecondMillimetersPerMinuteMetersPerMinuteMetersPerHourCubicMet" ++
       t!"ersPerMinuteMetersPerSecondPerSecondAmperesPerMeterAmperesPerSquareMeterAmpereSquareMeters" ++
       t!"FaradsHenrysOhmMetersSiemensSiemensPerMeterTeslasVoltsPerDegreeKelvinVoltsPerMeterWebersCa" ++
       t!"ndelasCandelasPerSquareMeterDegreesKelvinPerHourDegreesKelvinPerMinuteJouleSecondsRadiansP" ++
       t!"erSecondSquareMetersPerNewtonKilogramsPerCubicMeterNewtonSecondsNewtonsPerMeterWattsPerMet" ++
       t!"erPerDegreeKelvinMicrosiemensCubicFeetPerHourUSGallonsPerHourKilometersMicrometersGramsMil" ++
       t!"ligramsMillilitersMillilitersPerSecondDecibelsDecibelsMillivoltDecibelsVoltMillisiemensWat" ++
       t!"tHoursReactiveKilowattHoursReactiveMegawattHoursReactiveMillimetersOfWaterPerMilleGramsPer" ++
       t!"GramKilogramsPerKilogramGramsPerKilogramMilligramsPerGramMilligramsPerKilogramGramsPerMill" ++
       t!"iliterGramsPerLiterMilligramsPerLiterMicrogramsPerLiterGramsPerCubicMeterMilligramsPerCubi" ++
       t!"cMeterMicrogramsPerCubicMeterNanogramsPerCubicMeterGramsPerCubicCentimeterBecquerels",
     index := [
       0, 12, 29, 41, 52, 71, 93, 111, 118, 125, 135, 156, 166, 187, 216, 225, 234, 241, 251, 263, 272, 290,
       303, 324, 344, 368, 391, 422, 440, 465, 491, 500, 513, 521, 529, 556, 583, 608, 633, 639, 653, 667,
       678, 693, 710, 722, 734, 754, 774, 789, 802, 822, 846, 861, 882, 900, 906, 912, 921, 928, 943, 949,
       969, 982, 988, 996, 1018, 1038, 1060, 1072, 1088, 1109, 1131, 1144, 1159, 1187, 1199, 1215, 1231,
       1241, 1252, 1257, 1267, 1278, 1298, 1306, 1323, 1335, 1347, 1364, 1385, 1406, 1424, 1432, 1444, 1464,
       1480, 1497, 1518, 1536, 1549, 1567, 1585, 1603, 1626, 1649, 1671, 1694, 1704] },
   { first := 224, last := 236,
     name := t!"MegabecquerelsGrayMilligrayMicrograySievertsMillisievertsMicrosievertsMicrosievertsPerHour" ++
       t!"DecibelsANephelometricTurbidityUnitPhGramsPerSquareMeterMinutesPerDegreeKelvin",
     index := [
       0, 14, 18, 27, 36, 44, 57, 70, 90, 99, 125, 127, 146, 168] }]

/-- btypes/units/unit_string.go:239-264 `Unit.String`. -/
def unitString (i : UInt16) : Outcome (List Nat) := stringer unitRuns (t!"Unit") i.toNat

/-- btypes/segmentation/segmentedtype_string.go:17-26: the tables generated by `stringer` for `SegmentedType`. -/
def segmentationRuns : List Run := [
   { first := 0, last := 3,
     name := t!"SegmentedBothSegmentedTransmitSegmentedReceiveNoSegmentation",
     index := [
       0, 13, 30, 46, 60] }]

/-- btypes/segmentation/segmentedtype_string.go:17-26 `SegmentedType.String`. -/
def segmentationString (i : UInt8) : Outcome (List Nat) := stringer segmentationRuns (t!"SegmentedType") i.toNat

/-- btypes/ndpu/networkmessagetype_string.go:17-37: the tables generated by `stringer` for `NetworkMessageType`. -/
def netMessageRuns : List Run := [
   { first := 0, last := 1,
     name := t!"WhoIsRouterToNetworkIamRouterToNetwork",
     index := [
       0, 20, 38] },
   { first := 18, last := 19,
     name := t!"WhatIsNetworkNumberNetworkIs",
     index := [
       0, 19, 28] }]

/-- btypes/ndpu/networkmessagetype_string.go:17-37 `NetworkMessageType.String`. -/
def netMessageString (i : UInt8) : Outcome (List Nat) := stringer netMessageRuns (t!"NetworkMessageType") i.toNat

/-- btypes/bacerr/errorclass_string.go:21-30: the tables generated by `stringer` for `ErrorClass`. -/
def errorClassRuns : List Run := [
   { first := 0, last := 7,
     name := t!"DeviceErrorObjectErrorPropertyErrorResourcesErrorSecurityErrorServicesErrorVTErrorCommunic" ++
       t!"ationError",
     index := [
       0, 11, 22, 35, 49, 62, 75, 82, 100] }]

/-- btypes/bacerr/errorclass_string.go:21-30 `ErrorClass.String`. -/
def errorClassString (i : UInt16) : Outcome (List Nat) := stringer errorClassRuns (t!"ErrorClass") i.toNat

/-- btypes/bacerr/errorcode_string.go:149-169: the tables generated by `stringer` for `ErrorCode`. -/
def errorCodeRuns : List Run := [
   { first := 0, last := 32,
     name := t!"OtherAuthenticationFailedConfigurationInProgressDeviceBusyDynamicCreationNotSupportedFileA" ++
       t!"ccessDeniedIncompatibleSecurityLevelsInconsistentParametersInconsistentSelectionCriterionI" ++
       t!"nvalidDataTypeInvalidFileAccessMethodInvalidFileStartPositionInvalidOperatorNameInvalidPar" ++
       t!"ameterDataTypeInvalidTimeStampKeyGenerationErrorMissingRequiredParameterNoObjectsOfSpecifi" ++
       t!"edTypeNoSpaceForObjectNoSpaceToAddListElementNoSpaceToWritePropertyNoVtSessionsAvailablePr" ++
       t!"opertyIsNotAListObjectDeletionNotPermittedObjectIdentifierAlreadyExistsOperationalProblemP" ++
       t!"asswordFailureReadAccessDeniedSecurityNotSupportedServiceRequestDeniedTimeoutUnknownObject" ++
       t!"UnknownProperty",
     index := [
       0, 5, 25, 48, 58, 85, 101, 127, 149, 179, 194, 217, 241, 260, 284, 300, 318, 342, 366, 382, 405, 427,
       448, 466, 492, 521, 539, 554, 570, 590, 610, 617, 630, 645] },
   { first := 34, last := 136,
     name := t!"UnknownVtClassUnknownVtSessionUnsupportedObjectTypeValueOutOfRangeVtSessionAlreadyClosedVt" ++
       t!"SessionTerminationFailureWriteAccessDeniedCharacterSetNotSupportedInvalidArrayIndexCovSubs" ++
       t!"criptionFailedNotCovPropertyOptionalFunctionalityNotSupportedInvalidConfigurationDataDatat" ++
       t!"ypeNotSupportedDuplicateNameDuplicateObjectIDPropertyIsNotAnArrayAbortBufferOverflowAbortI" ++
       t!"nvalidApduInThisStateAbortPreemptedByHigherPriorityTaskAbortSegmentationNotSupportedAbortP" ++
       t!"roprietaryAbortOtherInvalidTagNetworkDownRejectBufferOverflowRejectInconsistentParametersR" ++
       t!"ejectInvalidParameterDataTypeRejectInvalidTagRejectMissingRequiredParameterRejectParameter" ++
       t!"OutOfRangeRejectTooManyArgumentsRejectUndefinedEnumerationRejectUnrecognizedServiceRejectP" ++
       t!"roprietaryRejectOtherUnknownDeviceUnknownRouteValueNotInitializedInvalidEventStateNoAlarmC" ++
       t!"onfiguredLogBufferFullLoggedValuePurgedNoPropertySpecifiedNotConfiguredForTriggeredLogging" ++
       t!"UnknownSubscriptionParameterOutOfRangeListElementNotFoundBusyCommunicationDisabledSuccessA" ++
       t!"ccessDeniedBadDestinationAddressBadDestinationDeviceIDBadSignatureBadSourceAddressBadTimes" ++
       t!"tampCannotUseKeyCannotVerifyMessageIDCorrectKeyRevisionDestinationDeviceIDRequiredDuplicat" ++
       t!"eMessageEncryptionNotConfiguredEncryptionRequiredIncorrectKeyInvalidKeyDataKeyUpdateInProg" ++
       t!"ressMalformedMessageNotKeyServerSecurityNotConfiguredSourceSecurityRequiredTooManyKeysUnkn" ++
       t!"ownAuthenticationTypeUnknownKeyUnknownKeyRevisionUnknownSourceMessageNotRouterToDnetRouter" ++
       t!"BusyUnknownNetworkMessageMessageTooLongSecurityErrorCodeAddressingErrorWriteBdtFailedReadB" ++
       t!"dtFailedRegisterForeignDeviceFailedReadFdtFailedDeleteFdtEntryFailedDistributeBroadcastFai" ++
       t!"ledUnknownFileSizeAbortApduTooLongAbortApplicationExceededReplyTimeAbortOutOfResourcesAbor" ++
       t!"tTsmTimeoutAbortWindowSizeOutOfRangeFileFullInconsistentConfigurationInconsistentObjectTyp" ++
       t!"eInternalErrorNotConfiguredOutOfMemoryValueTooLongAbortInsufficientSecurityAbortSecurityEr" ++
       t!"ror",
     index := [
       0, 14, 30, 51, 66, 88, 115, 132, 156, 173, 194, 208, 241, 265, 285, 298, 315, 335, 354, 381, 415, 444,
       460, 470, 480, 491, 511, 539, 569, 585, 615, 640, 662, 688, 713, 730, 741, 754, 766, 785, 802, 819,
       832, 849, 868, 900, 919, 938, 957, 961, 982, 989, 1001, 1022, 1044, 1056, 1072, 1084, 1096, 1117,
       1135, 1162, 1178, 1201, 1219, 1231, 1245, 1264, 1280, 1292, 1313, 1335, 1346, 1371, 1381, 1399, 1419,
       1434, 1444, 1465, 1479, 1496, 1511, 1525, 1538, 1565, 1578, 1598, 1623, 1638, 1654, 1687, 1706, 1721,
       1746, 1754, 1779, 1801, 1814, 1827, 1838, 1850, 1875, 1893] }]

/-- btypes/bacerr/errorcode_string.go:149-169 `ErrorCode.String`. -/
def errorCodeString (i : UInt32) : Outcome (List Nat) := stringer errorCodeRuns (t!"ErrorCode") i.toNat

end Bac
