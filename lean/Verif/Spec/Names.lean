import Verif.Text
/-!
# Names and numbers, independently of the code

The bits of BACnetServicesSupported (ASHRAE 135, clause 21) and the enumeration
constants with their identifiers and numbers.
-/

namespace Spec

open Bac

/-- ASHRAE 135, BACnetServicesSupported: the bit of each service. -/
def serviceBits : List (List Nat × Nat) := [
   (t!"acknowledgeAlarm", 0),
   (t!"confirmedCOVNotification", 1),
   (t!"confirmedEventNotification", 2),
   (t!"getAlarmSummary", 3),
   (t!"getEnrollmentSummary", 4),
   (t!"subscribeCOV", 5),
   (t!"atomicReadFile", 6),
   (t!"atomicWriteFile", 7),
   (t!"addListElement", 8),
   (t!"removeListElement", 9),
   (t!"createObject", 10),
   (t!"deleteObject", 11),
   (t!"readProperty", 12),
   (t!"readPropertyConditional", 13),
   (t!"readPropertyMultiple", 14),
   (t!"writeProperty", 15),
   (t!"writePropertyMultiple", 16),
   (t!"deviceCommunicationControl", 17),
   (t!"confirmedPrivateTransfer", 18),
   (t!"confirmedTextMessage", 19),
   (t!"reinitializeDevice", 20),
   (t!"vtOpen", 21),
   (t!"vtClose", 22),
   (t!"vtData", 23),
   (t!"authenticate", 24),
   (t!"requestKey", 25),
   (t!"iAm", 26),
   (t!"iHave", 27),
   (t!"unconfirmedCOVNotification", 28),
   (t!"unconfirmedEventNotification", 29),
   (t!"unconfirmedPrivateTransfer", 30),
   (t!"unconfirmedTextMessage", 31),
   (t!"timeSynchronization", 32),
   (t!"whoHas", 33),
   (t!"whoIs", 34),
   (t!"readRange", 35),
   (t!"utcTimeSynchronization", 36),
   (t!"lifeSafetyOperation", 37),
   (t!"subscribeCOVProperty", 38),
   (t!"getEventInformation", 39),
   (t!"writeGroup", 40)]

/-- ASHRAE 135, BACnetErrorClass. -/
def standardErrorClasses : List (List Nat × Nat) := [
   (t!"Device", 0), (t!"Object", 1), (t!"Property", 2), (t!"Resources", 3), (t!"Security", 4),
   (t!"Services", 5), (t!"VT", 6), (t!"Communication", 7)]

/-- The constants of type `Unit` with their numbers (btypes/units/units.go). -/
def unitNames : List (List Nat × Nat) := [
   (t!"SquareMeters", 0), (t!"SquareFeet", 1), (t!"Milliamperes", 2), (t!"Amperes", 3),
   (t!"Ohms", 4), (t!"Volts", 5), (t!"Kilovolts", 6), (t!"Megavolts", 7),
   (t!"VoltAmperes", 8), (t!"KilovoltAmperes", 9), (t!"MegavoltAmperes", 10),
   (t!"VoltAmperesReactive", 11), (t!"KilovoltAmperesReactive", 12),
   (t!"MegavoltAmperesReactive", 13), (t!"DegreesPhase", 14), (t!"PowerFactor", 15),
   (t!"Joules", 16), (t!"Kilojoules", 17), (t!"WattHours", 18), (t!"KilowattHours", 19),
   (t!"Btus", 20), (t!"Therms", 21), (t!"TonHours", 22), (t!"JoulesPerKilogramDryAir", 23),
   (t!"BtusPerPoundDryAir", 24), (t!"CyclesPerHour", 25), (t!"CyclesPerMinute", 26),
   (t!"Hertz", 27), (t!"GramsOfWaterPerKilogramDryAir", 28), (t!"PercentRelativeHumidity", 29),
   (t!"Millimeters", 30), (t!"Meters", 31), (t!"Inches", 32), (t!"Feet", 33),
   (t!"WattsPerSquareFoot", 34), (t!"WattsPerSquareMeter", 35), (t!"Lumens", 36),
   (t!"Luxes", 37), (t!"FootCandles", 38), (t!"Kilograms", 39), (t!"PoundsMass", 40),
   (t!"Tons", 41), (t!"KilogramsPerSecond", 42), (t!"KilogramsPerMinute", 43),
   (t!"KilogramsPerHour", 44), (t!"PoundsMassPerMinute", 45), (t!"PoundsMassPerHour", 46),
   (t!"Watts", 47), (t!"Kilowatts", 48), (t!"Megawatts", 49), (t!"BtusPerHour", 50),
   (t!"Horsepower", 51), (t!"TonsRefrigeration", 52), (t!"Pascals", 53), (t!"Kilopascals", 54),
   (t!"Bars", 55), (t!"PoundsForcePerSquareInch", 56), (t!"CentimetersOfWater", 57),
   (t!"InchesOfWater", 58), (t!"MillimetersOfMercury", 59), (t!"CentimetersOfMercury", 60),
   (t!"InchesOfMercury", 61), (t!"DegreesCelsius", 62), (t!"DegreesKelvin", 63),
   (t!"DegreesFahrenheit", 64), (t!"DegreeDaysCelsius", 65), (t!"DegreeDaysFahrenheit", 66),
   (t!"Years", 67), (t!"Months", 68), (t!"Weeks", 69), (t!"Days", 70), (t!"Hours", 71),
   (t!"Minutes", 72), (t!"Seconds", 73), (t!"MetersPerSecond", 74), (t!"KilometersPerHour", 75),
   (t!"FeetPerSecond", 76), (t!"FeetPerMinute", 77), (t!"MilesPerHour", 78), (t!"CubicFeet", 79),
   (t!"CubicMeters", 80), (t!"ImperialGallons", 81), (t!"Liters", 82), (t!"UsGallons", 83),
   (t!"CubicFeetPerMinute", 84), (t!"CubicMetersPerSecond", 85), (t!"ImperialGallonsPerMinute", 86),
   (t!"LitersPerSecond", 87), (t!"LitersPerMinute", 88), (t!"USGallonsPerMinute", 89),
   (t!"DegreesAngular", 90), (t!"DegreesCelsiusPerHour", 91), (t!"DegreesCelsiusPerMinute", 92),
   (t!"DegreesFahrenheitPerHour", 93), (t!"DegreesFahrenheitPerMinute", 94), (t!"NoUnits", 95),
   (t!"PartsPerMillion", 96), (t!"PartsPerBillion", 97), (t!"Percent", 98),
   (t!"PercentPerSecond", 99), (t!"PerMinute", 100), (t!"PerSecond", 101),
   (t!"PsiPerDegreeFahrenheit", 102), (t!"Radians", 103), (t!"RevolutionsPerMinute", 104),
   (t!"SquareInches", 115), (t!"SquareCentimeters", 116), (t!"BtusPerPound", 117),
   (t!"Centimeters", 118), (t!"PoundsMassPerSecond", 119), (t!"DeltaDegreesFahrenheit", 120),
   (t!"DeltaDegreesKelvin", 121), (t!"Kilohms", 122), (t!"Megohms", 123), (t!"Millivolts", 124),
   (t!"KilojoulesPerKilogram", 125), (t!"Megajoules", 126), (t!"JoulesPerDegreeKelvin", 127),
   (t!"JoulesPerKilogramDegreeKelvin", 128), (t!"Kilohertz", 129), (t!"Megahertz", 130),
   (t!"PerHour", 131), (t!"Milliwatts", 132), (t!"Hectopascals", 133), (t!"Millibars", 134),
   (t!"CubicMetersPerHour", 135), (t!"LitersPerHour", 136), (t!"KwHoursPerSquareMeter", 137),
   (t!"KwHoursPerSquareFoot", 138), (t!"MegajoulesPerSquareMeter", 139),
   (t!"MegajoulesPerSquareFoot", 140), (t!"WattsPerSquareMeterDegreeKelvin", 141),
   (t!"CubicFeetPerSecond", 142), (t!"PercentObscurationPerFoot", 143),
   (t!"PercentObscurationPerMeter", 144), (t!"Milliohms", 145), (t!"MegawattHours", 146),
   (t!"KiloBtus", 147), (t!"MegaBtus", 148), (t!"KilojoulesPerKilogramDryAir", 149),
   (t!"MegajoulesPerKilogramDryAir", 150), (t!"KilojoulesPerDegreeKelvin", 151),
   (t!"MegajoulesPerDegreeKelvin", 152), (t!"Newton", 153), (t!"GramsPerSecond", 154),
   (t!"GramsPerMinute", 155), (t!"TonsPerHour", 156), (t!"KiloBtusPerHour", 157),
   (t!"HundredthsSeconds", 158), (t!"Milliseconds", 159), (t!"NewtonMeters", 160),
   (t!"MillimetersPerSecond", 161), (t!"MillimetersPerMinute", 162), (t!"MetersPerMinute", 163),
   (t!"MetersPerHour", 164), (t!"CubicMetersPerMinute", 165), (t!"MetersPerSecondPerSecond", 166),
   (t!"AmperesPerMeter", 167), (t!"AmperesPerSquareMeter", 168), (t!"AmpereSquareMeters", 169),
   (t!"Farads", 170), (t!"Henrys", 171), (t!"OhmMeters", 172), (t!"Siemens", 173),
   (t!"SiemensPerMeter", 174), (t!"Teslas", 175), (t!"VoltsPerDegreeKelvin", 176),
   (t!"VoltsPerMeter", 177), (t!"Webers", 178), (t!"Candelas", 179),
   (t!"CandelasPerSquareMeter", 180), (t!"DegreesKelvinPerHour", 181),
   (t!"DegreesKelvinPerMinute", 182), (t!"JouleSeconds", 183), (t!"RadiansPerSecond", 184),
   (t!"SquareMetersPerNewton", 185), (t!"KilogramsPerCubicMeter", 186), (t!"NewtonSeconds", 187),
   (t!"NewtonsPerMeter", 188), (t!"WattsPerMeterPerDegreeKelvin", 189), (t!"Microsiemens", 190),
   (t!"CubicFeetPerHour", 191), (t!"USGallonsPerHour", 192), (t!"Kilometers", 193),
   (t!"Micrometers", 194), (t!"Grams", 195), (t!"Milligrams", 196), (t!"Milliliters", 197),
   (t!"MillilitersPerSecond", 198), (t!"Decibels", 199), (t!"DecibelsMillivolt", 200),
   (t!"DecibelsVolt", 201), (t!"Millisiemens", 202), (t!"WattHoursReactive", 203),
   (t!"KilowattHoursReactive", 204), (t!"MegawattHoursReactive", 205),
   (t!"MillimetersOfWater", 206), (t!"PerMille", 207), (t!"GramsPerGram", 208),
   (t!"KilogramsPerKilogram", 209), (t!"GramsPerKilogram", 210), (t!"MilligramsPerGram", 211),
   (t!"MilligramsPerKilogram", 212), (t!"GramsPerMilliliter", 213), (t!"GramsPerLiter", 214),
   (t!"MilligramsPerLiter", 215), (t!"MicrogramsPerLiter", 216), (t!"GramsPerCubicMeter", 217),
   (t!"MilligramsPerCubicMeter", 218), (t!"MicrogramsPerCubicMeter", 219),
   (t!"NanogramsPerCubicMeter", 220), (t!"GramsPerCubicCentimeter", 221), (t!"Becquerels", 222),
   (t!"Megabecquerels", 224), (t!"Gray", 225), (t!"Milligray", 226), (t!"Microgray", 227),
   (t!"Sieverts", 228), (t!"Millisieverts", 229), (t!"Microsieverts", 230),
   (t!"MicrosievertsPerHour", 231), (t!"DecibelsA", 232), (t!"NephelometricTurbidityUnit", 233),
   (t!"Ph", 234), (t!"GramsPerSquareMeter", 235), (t!"MinutesPerDegreeKelvin", 236)]

/-- The constants of type `SegmentedType` with their numbers (btypes/segmentation/segmentation.go). -/
def segmentationNames : List (List Nat × Nat) := [
   (t!"SegmentedBoth", 0), (t!"SegmentedTransmit", 1), (t!"SegmentedReceive", 2),
   (t!"NoSegmentation", 3)]

/-- The constants of type `NetworkMessageType` with their numbers (btypes/ndpu/messagetypes.go). -/
def netMessageNames : List (List Nat × Nat) := [
   (t!"WhoIsRouterToNetwork", 0), (t!"IamRouterToNetwork", 1), (t!"WhatIsNetworkNumber", 18),
   (t!"NetworkIs", 19)]

/-- The constants of type `ErrorClass` with their numbers (btypes/bacerr/bacerr.go). -/
def errorClassNames : List (List Nat × Nat) := [
   (t!"DeviceError", 0), (t!"ObjectError", 1), (t!"PropertyError", 2), (t!"ResourcesError", 3),
   (t!"SecurityError", 4), (t!"ServicesError", 5), (t!"VTError", 6), (t!"CommunicationError", 7)]

/-- The constants of type `ErrorCode` with their numbers (btypes/bacerr/bacerr.go). -/
def errorCodeNames : List (List Nat × Nat) := [
   (t!"Other", 0), (t!"DeviceBusy", 3), (t!"ConfigurationInProgress", 2),
   (t!"OperationalProblem", 25), (t!"DynamicCreationNotSupported", 4),
   (t!"NoObjectsOfSpecifiedType", 17), (t!"ObjectDeletionNotPermitted", 23),
   (t!"ObjectIdentifierAlreadyExists", 24), (t!"ReadAccessDenied", 27), (t!"UnknownObject", 31),
   (t!"UnsupportedObjectType", 36), (t!"CharacterSetNotSupported", 41),
   (t!"DatatypeNotSupported", 47), (t!"InconsistentSelectionCriterion", 8),
   (t!"InvalidArrayIndex", 42), (t!"InvalidDataType", 9), (t!"NotCovProperty", 44),
   (t!"OptionalFunctionalityNotSupported", 45), (t!"PropertyIsNotAnArray", 50),
   (t!"UnknownProperty", 32), (t!"ValueOutOfRange", 37), (t!"WriteAccessDenied", 40),
   (t!"NoSpaceForObject", 18), (t!"NoSpaceToAddListElement", 19), (t!"NoSpaceToWriteProperty", 20),
   (t!"AuthenticationFailed", 1), (t!"IncompatibleSecurityLevels", 6),
   (t!"InvalidOperatorName", 12), (t!"KeyGenerationError", 15), (t!"PasswordFailure", 26),
   (t!"SecurityNotSupported", 28), (t!"Timeout", 30), (t!"CovSubscriptionFailed", 43),
   (t!"DuplicateName", 48), (t!"DuplicateObjectID", 49), (t!"FileAccessDenied", 5),
   (t!"InconsistentParameters", 7), (t!"InvalidConfigurationData", 46),
   (t!"InvalidFileAccessMethod", 10), (t!"InvalidFileStartPosition", 11),
   (t!"InvalidParameterDataType", 13), (t!"InvalidTimeStamp", 14),
   (t!"MissingRequiredParameter", 16), (t!"PropertyIsNotAList", 22), (t!"ServiceRequestDenied", 29),
   (t!"UnknownVtClass", 34), (t!"UnknownVtSession", 35), (t!"NoVtSessionsAvailable", 21),
   (t!"VtSessionAlreadyClosed", 38), (t!"VtSessionTerminationFailure", 39),
   (t!"AbortBufferOverflow", 51), (t!"AbortInvalidApduInThisState", 52),
   (t!"AbortPreemptedByHigherPriorityTask", 53), (t!"AbortSegmentationNotSupported", 54),
   (t!"AbortProprietary", 55), (t!"AbortOther", 56), (t!"InvalidTag", 57), (t!"NetworkDown", 58),
   (t!"RejectBufferOverflow", 59), (t!"RejectInconsistentParameters", 60),
   (t!"RejectInvalidParameterDataType", 61), (t!"RejectInvalidTag", 62),
   (t!"RejectMissingRequiredParameter", 63), (t!"RejectParameterOutOfRange", 64),
   (t!"RejectTooManyArguments", 65), (t!"RejectUndefinedEnumeration", 66),
   (t!"RejectUnrecognizedService", 67), (t!"RejectProprietary", 68), (t!"RejectOther", 69),
   (t!"UnknownDevice", 70), (t!"UnknownRoute", 71), (t!"ValueNotInitialized", 72),
   (t!"InvalidEventState", 73), (t!"NoAlarmConfigured", 74), (t!"LogBufferFull", 75),
   (t!"LoggedValuePurged", 76), (t!"NoPropertySpecified", 77),
   (t!"NotConfiguredForTriggeredLogging", 78), (t!"UnknownSubscription", 79),
   (t!"ParameterOutOfRange", 80), (t!"ListElementNotFound", 81), (t!"Busy", 82),
   (t!"CommunicationDisabled", 83), (t!"Success", 84), (t!"AccessDenied", 85),
   (t!"BadDestinationAddress", 86), (t!"BadDestinationDeviceID", 87), (t!"BadSignature", 88),
   (t!"BadSourceAddress", 89), (t!"BadTimestamp", 90), (t!"CannotUseKey", 91),
   (t!"CannotVerifyMessageID", 92), (t!"CorrectKeyRevision", 93),
   (t!"DestinationDeviceIDRequired", 94), (t!"DuplicateMessage", 95),
   (t!"EncryptionNotConfigured", 96), (t!"EncryptionRequired", 97), (t!"IncorrectKey", 98),
   (t!"InvalidKeyData", 99), (t!"KeyUpdateInProgress", 100), (t!"MalformedMessage", 101),
   (t!"NotKeyServer", 102), (t!"SecurityNotConfigured", 103), (t!"SourceSecurityRequired", 104),
   (t!"TooManyKeys", 105), (t!"UnknownAuthenticationType", 106), (t!"UnknownKey", 107),
   (t!"UnknownKeyRevision", 108), (t!"UnknownSourceMessage", 109), (t!"NotRouterToDnet", 110),
   (t!"RouterBusy", 111), (t!"UnknownNetworkMessage", 112), (t!"MessageTooLong", 113),
   (t!"SecurityErrorCode", 114), (t!"AddressingError", 115), (t!"WriteBdtFailed", 116),
   (t!"ReadBdtFailed", 117), (t!"RegisterForeignDeviceFailed", 118), (t!"ReadFdtFailed", 119),
   (t!"DeleteFdtEntryFailed", 120), (t!"DistributeBroadcastFailed", 121),
   (t!"UnknownFileSize", 122), (t!"AbortApduTooLong", 123),
   (t!"AbortApplicationExceededReplyTime", 124), (t!"AbortOutOfResources", 125),
   (t!"AbortTsmTimeout", 126), (t!"AbortWindowSizeOutOfRange", 127), (t!"FileFull", 128),
   (t!"InconsistentConfiguration", 129), (t!"InconsistentObjectType", 130),
   (t!"InternalError", 131), (t!"NotConfigured", 132), (t!"OutOfMemory", 133),
   (t!"ValueTooLong", 134), (t!"AbortInsufficientSecurity", 135), (t!"AbortSecurityError", 136)]

/-- The object types that have a name. -/
def namedTypes : List UInt16 := [0, 1, 2, 3, 4, 5, 8, 10, 13, 14, 15, 19, 20, 40]

/-- Properties and the words of their names, with the numbers of the standard (the
enumeration BACnetPropertyIdentifier).  The library says All Properties for the
standard's all, and Object Reference for its object-property-reference. -/
def propertyWords : List (List (List Nat) × Nat) := [
  ([t!"All", t!"Properties"], 8),
  ([t!"Description"], 28),
  ([t!"File", t!"Size"], 42),
  ([t!"File", t!"Type"], 43),
  ([t!"Model", t!"Name"], 70),
  ([t!"Object", t!"Identifier"], 75),
  ([t!"Object", t!"List"], 76),
  ([t!"Object", t!"Name"], 77),
  ([t!"Object", t!"Reference"], 78),
  ([t!"Object", t!"Type"], 79),
  ([t!"Present", t!"Value"], 85),
  ([t!"Priority", t!"Array"], 87),
  ([t!"Units"], 117)]

end Spec
