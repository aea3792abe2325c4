{"id": "C01", "title": "Tag headers round-trip", "statement": "Any tag header the encoder writes (tag number 0..255, application or context class, length/value 0..2^32-1), followed by arbitrary further bytes, is read back by the decoder as the same tag number, class and length, leaving exactly the further bytes unread. Opening and closing tags are read back with the same number and kind.", "quantifier": "for every tag number, class, length value and every continuation of the byte stream", "why_tests_cant": "The input space (all byte strings / all 32-bit values / all list lengths) is infinite or astronomically large; unit tests sample a handful of literals.", "anchors": ["encoding/encoder.go: Encoder.tag, Encoder.tagNum, Encoder.openingTag, Encoder.closingTag", "encoding/decoder.go: Decoder.tagNumber, Decoder.value, Decoder.tagNumberAndValue", "encoding/general.go: tagMeta"]}
{"id": "C02", "title": "Tag headers follow the BACnet layout", "statement": "The bytes of a tag header are exactly those of ASHRAE 135 clause 20.2.1: number <=14 in the high nibble otherwise 0xF plus one byte, class in bit 3, length <=4 in the low bits otherwise 5 followed by one byte (<=253), 254+uint16 or 255+uint32.", "quantifier": "for every tag number, class and length", "why_tests_cant": "The input space (all byte strings / all 32-bit values / all list lengths) is infinite or astronomically large; unit tests sample a handful of literals.", "anchors": ["encoding/encoder.go: Encoder.tag, Encoder.openingTag, Encoder.closingTag"]}
{"id": "C03", "title": "Unsigned integers are minimal big-endian and round-trip", "statement": "Every uint32 (also as enumerated and as context-tagged unsigned) is written big-endian in the least number of octets (1..4) that holds it, the length announced in its tag is that number, and decoding with that length returns the same value and consumes exactly those octets.", "quantifier": "for every 32-bit value and every continuation of the stream", "why_tests_cant": "The input space (all byte strings / all 32-bit values / all list lengths) is infinite or astronomically large; unit tests sample a handful of literals.", "anchors": ["encoding/general.go: valueLength", "encoding/encoder.go: Encoder.unsigned, Encoder.unsigned24, Encoder.contextUnsigned, Encoder.enumerated", "encoding/decoder.go: Decoder.unsigned, Decoder.unsigned24, Decoder.enumerated"]}
{"id": "C04", "title": "Object identifiers round-trip and are never silently aliased", "statement": "Encoding an object identifier and decoding it returns the same type and instance; two different identifiers never produce the same bytes without an error.", "quantifier": "for every object type (uint16) and instance (uint32)", "why_tests_cant": "The input space (all byte strings / all 32-bit values / all list lengths) is infinite or astronomically large; unit tests sample a handful of literals.", "anchors": ["encoding/encoder.go: Encoder.objectId, Encoder.contextObjectID", "encoding/decoder.go: Decoder.objectId", "encoding/const.go: MaxInstance, InstanceBits"]}
{"id": "C05", "title": "Application values round-trip", "statement": "A value of any Go type the application-data encoder accepts (null, bool, uint32, int32, float32, float64, string, Enumerated, ObjectID) is decoded back to the same value and exactly the encoded bytes are consumed.", "quantifier": "for every value of every supported type and every continuation of the stream", "why_tests_cant": "The input space (all byte strings / all 32-bit values / all list lengths) is infinite or astronomically large; unit tests sample a handful of literals.", "anchors": ["encoding/appdata.go: Encoder.AppData, Decoder.AppData, Decoder.AppDataOfTag", "encoding/string.go"]}
{"id": "C06", "title": "Announced length equals content length", "statement": "For every value the application-data encoder accepts, the number of content octets written after the tag header equals the length announced in the tag header, so that any conforming receiver can skip the value.", "quantifier": "for every value of every supported type", "why_tests_cant": "The input space (all byte strings / all 32-bit values / all list lengths) is infinite or astronomically large; unit tests sample a handful of literals.", "anchors": ["encoding/appdata.go: Encoder.AppData"]}
{"id": "C07", "title": "Unsupported values are refused, errors are sticky", "statement": "If a value of a Go type that is not supported is given to the application-data encoder, an error is recorded, no later write adds a byte, and the error stays visible through Error().", "quantifier": "for every encoder state, every unsupported value and every later sequence of encoder operations", "why_tests_cant": "The input space (all byte strings / all 32-bit values / all list lengths) is infinite or astronomically large; unit tests sample a handful of literals.", "anchors": ["encoding/appdata.go: Encoder.AppData", "encoding/encoder.go: Encoder.write, Encoder.Error"]}
{"id": "C08", "title": "Signed integers are two's complement", "statement": "A signed integer of n octets (n=1..4) received from a device is decoded to the integer whose n-octet big-endian two's complement representation was received.", "quantifier": "for every n in 1..4 and every content of n octets", "why_tests_cant": "The input space (all byte strings / all 32-bit values / all list lengths) is infinite or astronomically large; unit tests sample a handful of literals.", "anchors": ["encoding/decoder.go: Decoder.signed, Decoder.signed24"]}
{"id": "C09", "title": "Decoding an application value never crashes the process", "statement": "Decoding an application value from arbitrary bytes returns a value or an error; it does not panic.", "quantifier": "for every byte string", "why_tests_cant": "The set of hostile packets is unbounded; fuzzing only samples it.", "anchors": ["encoding/appdata.go: Decoder.AppData, Decoder.AppDataOfTag", "encoding/string.go: Decoder.string", "encoding/date.go: Decoder.time"]}
{"id": "C10", "title": "Truncated application values are reported", "statement": "If the bytes of an encoded application value are cut short anywhere, decoding reports an error instead of returning a made-up value.", "quantifier": "for every supported value and every proper prefix of its encoding", "why_tests_cant": "The input space (all byte strings / all 32-bit values / all list lengths) is infinite or astronomically large; unit tests sample a handful of literals.", "anchors": ["encoding/appdata.go: Decoder.AppData, Decoder.AppDataOfTag", "encoding/decoder.go: Decoder.decode"]}
{"id": "C11", "title": "Decoder failure is final", "statement": "After a read ran out of input, the remaining input is empty, every later primitive read returns the zero value, and the error is still reported at the end.", "quantifier": "for every input and every sequence of decoder operations", "why_tests_cant": "The input space (all byte strings / all 32-bit values / all list lengths) is infinite or astronomically large; unit tests sample a handful of literals.", "anchors": ["encoding/decoder.go: Decoder.decode, Decoder.Skip, Decoder.Error", "encoding/date.go: Decoder.date, Decoder.time"]}
{"id": "C12", "title": "Bit strings are decoded bit for bit", "statement": "A received BIT STRING of k octets with u unused bits decodes to a bit string with 8k-u bits whose i-th bit is the i-th transmitted bit (most significant bit first), and reading it never crashes.", "quantifier": "for every octet count, every unused count and every content", "why_tests_cant": "The input space (all byte strings / all 32-bit values / all list lengths) is infinite or astronomically large; unit tests sample a handful of literals.", "anchors": ["encoding/decoder.go: Decoder.bitString", "encoding/general.go: byteReverseBits", "btypes/bitstring.go: SetByte, SetBitsUsed, Bit, GetValue"]}
{"id": "C13", "title": "Bit string set/get laws", "statement": "Setting bit i of a bit string makes Bit(i) return the value set, leaves every other bit unchanged, and extends the number of used bits to at least i+1 without ever shrinking it.", "quantifier": "for every bit string, every pair of positions and both values", "why_tests_cant": "The input space (all byte strings / all 32-bit values / all list lengths) is infinite or astronomically large; unit tests sample a handful of literals.", "anchors": ["btypes/bitstring.go: SetBit, Bit, BitsUsed, NewBitString"]}
{"id": "C14", "title": "Dates and times are decoded as transmitted", "statement": "A received Date of four octets y,m,d,w decodes to year 1900+y (or unspecified when y=255), month m, day d, weekday w; a received Time decodes to hour, minute, second and hundredths*10 ms; encoding a decoded date or time gives the octets back.", "quantifier": "for every four-octet content", "why_tests_cant": "The input space (all byte strings / all 32-bit values / all list lengths) is infinite or astronomically large; unit tests sample a handful of literals.", "anchors": ["encoding/date.go: Decoder.date, Encoder.date, Decoder.time, Encoder.time", "btypes/datetime.go"]}
{"id": "C15", "title": "Max-segments / max-APDU octet", "statement": "Decoding the encoded octet never advertises fewer octets than one of the standard sizes that covers the requested max-APDU, and advertises at most the requested number of segments; the six standard sizes and the powers of two up to 64 survive exactly.", "quantifier": "for every requested segment count and APDU size", "why_tests_cant": "The input space (all byte strings / all 32-bit values / all list lengths) is infinite or astronomically large; unit tests sample a handful of literals.", "anchors": ["encoding/general.go: encodeMaxSegsMaxApdu, decodeMaxApdu, decodeMaxSegs"]}
{"id": "C16", "title": "BVLC header round-trips and its length field is exact", "statement": "Every frame sent carries type 0x81, the selected function, and a length field equal to the total number of octets of the frame; decoding the frame returns these fields and leaves exactly the payload unread.", "quantifier": "for every payload and function", "why_tests_cant": "The input space (all byte strings / all 32-bit values / all list lengths) is infinite or astronomically large; unit tests sample a handful of literals.", "anchors": ["encoding/bvlc.go: Encoder.BVLC, Decoder.BVLC", "device.go: client.Send"]}
{"id": "C17", "title": "NPDU headers round-trip", "statement": "Every network header the encoder writes (version, priority, expecting-reply, optional destination and source network/address, hop count, network message type and vendor) is decoded back to the same header and leaves exactly the following bytes unread.", "quantifier": "for every header and every continuation", "why_tests_cant": "The input space (all byte strings / all 32-bit values / all list lengths) is infinite or astronomically large; unit tests sample a handful of literals.", "anchors": ["encoding/npdu.go: Encoder.NPDU, Decoder.NPDU, Decoder.Address", "btypes/npdu.go"]}
{"id": "C18", "title": "Decoding a network header never crashes", "statement": "Decoding an NPDU from arbitrary bytes terminates with a header or an error; it never panics, and it never reads the payload of a message that is not a network-layer message.", "quantifier": "for every byte string", "why_tests_cant": "The input space (all byte strings / all 32-bit values / all list lengths) is infinite or astronomically large; unit tests sample a handful of literals.", "anchors": ["encoding/npdu.go: Decoder.NPDU"]}
{"id": "C19", "title": "I-Am-Router-To-Network lists are decoded completely", "statement": "An I-Am-Router-To-Network message carrying networks n1..nk (k>=1) is decoded to exactly the set of networks n1..nk.", "quantifier": "for every k>=1 and every list of network numbers", "why_tests_cant": "The input space (all byte strings / all 32-bit values / all list lengths) is infinite or astronomically large; unit tests sample a handful of literals.", "anchors": ["encoding/npdu.go: Decoder.NPDU", "device.go: handleMsg", "whoisrouter.go: WhoIsRouterToNetwork"]}
{"id": "C20", "title": "APDU headers round-trip", "statement": "Every confirmed-request, unconfirmed-request and complex-ack header the encoder accepts is decoded back to the same fields with exactly the service payload left; every other PDU type is refused with an error when encoding.", "quantifier": "for every header field value and payload", "why_tests_cant": "The input space (all byte strings / all 32-bit values / all list lengths) is infinite or astronomically large; unit tests sample a handful of literals.", "anchors": ["encoding/apdu.go: Encoder.APDU, Decoder.APDU"]}
{"id": "C21", "title": "Error PDUs report the device's class and code", "statement": "When a device answers with an Error PDU the error class and error code reported are the ones the device sent.", "quantifier": "for every invoke id, service, error class and error code", "why_tests_cant": "The input space (all byte strings / all 32-bit values / all list lengths) is infinite or astronomically large; unit tests sample a handful of literals.", "anchors": ["encoding/apdu.go: Decoder.apduError", "device.go: handleMsg"]}
{"id": "C22", "title": "Who-Is requests round-trip", "statement": "A Who-Is with device limits low..high within 0..4194303 is encoded with both limits and decodes to the same limits; without limits it decodes to -1,-1.", "quantifier": "for every low and high", "why_tests_cant": "The input space (all byte strings / all 32-bit values / all list lengths) is infinite or astronomically large; unit tests sample a handful of literals.", "anchors": ["encoding/whois.go: Encoder.WhoIs, Decoder.WhoIs"]}
{"id": "C23", "title": "I-Am messages round-trip", "statement": "An I-Am built from a device identifier, max-APDU, segmentation and vendor decodes to the same four fields.", "quantifier": "for every valid device identifier and all field values", "why_tests_cant": "The input space (all byte strings / all 32-bit values / all list lengths) is infinite or astronomically large; unit tests sample a handful of literals.", "anchors": ["encoding/iam.go: Encoder.IAm, Decoder.IAm"]}
{"id": "C24", "title": "ReadProperty request layout", "statement": "The ReadProperty request sent for an object identifier, property and optional array index is the exact byte string prescribed by the standard (header 00 05 invoke 0C, [0] object id, [1] property, [2] array index only when one was given), and decoding it gives the same object, property and index.", "quantifier": "for every valid object, property, index and invoke id", "why_tests_cant": "The input space (all byte strings / all 32-bit values / all list lengths) is infinite or astronomically large; unit tests sample a handful of literals.", "anchors": ["encoding/readprop.go: Encoder.ReadProperty, Encoder.readPropertyHeader, Decoder.ReadProperty"]}
{"id": "C25", "title": "Invalid object types and properties are refused before transmission", "statement": "A request naming an object type above 1023 or a property above 4194303 is refused with an error; nothing is sent to the network.", "quantifier": "for every request, every object type > 1023 and every property > 4194303, for each of the four request kinds", "why_tests_cant": "The property quantifies over every configuration value the caller may pass; tests fix one or two.", "anchors": ["encoding/readprop.go: readPropertyHeader, Encoder.ReadProperty", "encoding/writeprop.go: Encoder.WriteProperty", "readprop.go", "writeprop.go"]}
{"id": "C26", "title": "ReadProperty acknowledgements produced by the library are well formed and round-trip", "statement": "An acknowledgement encoded by the library has balanced opening/closing tags and decodes to the same object, property, index and value.", "quantifier": "for every object, property, index and supported value", "why_tests_cant": "The input space (all byte strings / all 32-bit values / all list lengths) is infinite or astronomically large; unit tests sample a handful of literals.", "anchors": ["encoding/readprop.go: Encoder.ReadPropertyAck, Decoder.ReadProperty"]}
{"id": "C27", "title": "ReadProperty results: complete and in order", "statement": "A conforming ReadProperty acknowledgement with n application values is decoded to those n values in order (n=1 as the value itself, n>=2 as a list, n=0 as no data), with the object, property and index of the acknowledgement.", "quantifier": "for every object, property, index and every finite list of application values", "why_tests_cant": "The input space (all byte strings / all 32-bit values / all list lengths) is infinite or astronomically large; unit tests sample a handful of literals.", "anchors": ["encoding/readprop.go: Decoder.ReadProperty", "readprop.go: client.ReadProperty"]}
{"id": "C28", "title": "ReadProperty decoding terminates", "statement": "Decoding any byte string as a ReadProperty acknowledgement finishes after at most as many value reads as there are bytes.", "quantifier": "for every byte string", "why_tests_cant": "Non-termination cannot be observed by a finite test, and all byte strings must be covered.", "anchors": ["encoding/readprop.go: Decoder.ReadProperty"]}
{"id": "C29", "title": "WriteProperty request layout", "statement": "The WriteProperty request is the exact byte string prescribed by the standard: header 00 05 invoke 0F, [0] object id, [1] property, optional [2] index, opening [3] value closing [3], and [4] priority exactly when a non-zero priority was given; a present-value of a binary output/value is written as an enumerated, everything else in its own type.", "quantifier": "for every valid object, property, index, value and priority", "why_tests_cant": "The input space (all byte strings / all 32-bit values / all list lengths) is infinite or astronomically large; unit tests sample a handful of literals.", "anchors": ["encoding/writeprop.go: Encoder.WriteProperty, pointTypeBOBV", "encoding/appdata.go: Encoder.AppData"]}
{"id": "C30", "title": "WriteProperty never crashes the caller", "statement": "Building a WriteProperty request returns bytes or an error for every value and object; it does not panic.", "quantifier": "for every object, property and value of any Go type", "why_tests_cant": "The property quantifies over every configuration value the caller may pass; tests fix one or two.", "anchors": ["encoding/appdata.go: Encoder.AppData (line 77)", "encoding/writeprop.go: Encoder.WriteProperty", "network/write.go: Device.Write"]}
{"id": "C31", "title": "ReadPropertyMultiple request layout", "statement": "The ReadPropertyMultiple request for any list of objects, each with any list of property references, is the exact byte string prescribed by the standard, in the order given.", "quantifier": "for every list of objects and properties of any length", "why_tests_cant": "The input space (all byte strings / all 32-bit values / all list lengths) is infinite or astronomically large; unit tests sample a handful of literals.", "anchors": ["encoding/readmultiple.go: Encoder.ReadMultipleProperty", "encoding/encoder.go: Encoder.objects, Encoder.properties"]}
{"id": "C32", "title": "WritePropertyMultiple request layout", "statement": "The WritePropertyMultiple request for any list of objects and values is the byte string prescribed by the standard, in particular the write priority is carried under context tag 3.", "quantifier": "for every list of objects, properties, values and priorities", "why_tests_cant": "The input space (all byte strings / all 32-bit values / all list lengths) is infinite or astronomically large; unit tests sample a handful of literals.", "anchors": ["encoding/writemultiple.go: Encoder.WriteMultiProperty", "encoding/encoder.go: Encoder.objects, Encoder.properties"]}
{"id": "C33", "title": "ReadPropertyMultiple results: complete and in order", "statement": "A conforming ReadPropertyMultiple acknowledgement is decoded to exactly the objects, properties, indices and values it carries, in order.", "quantifier": "for every list of objects, every list of results per object, every list of values per result", "why_tests_cant": "The input space (all byte strings / all 32-bit values / all list lengths) is infinite or astronomically large; unit tests sample a handful of literals.", "anchors": ["encoding/readmultipleack.go: Decoder.ReadMultiplePropertyAck, objectsWithData"]}
{"id": "C34", "title": "ReadPropertyMultiple decoding terminates", "statement": "Decoding any byte string as a ReadPropertyMultiple acknowledgement finishes and uses memory bounded by the input.", "quantifier": "for every byte string", "why_tests_cant": "Non-termination cannot be observed by a finite test, and all byte strings must be covered.", "anchors": ["encoding/readmultipleack.go: objectsWithData"]}
{"id": "C35", "title": "ReadPropertyMultiple acknowledgements produced by the library round-trip", "statement": "An acknowledgement encoded by the library decodes to the same objects, properties and values.", "quantifier": "for every list of objects with supported values", "why_tests_cant": "The input space (all byte strings / all 32-bit values / all list lengths) is infinite or astronomically large; unit tests sample a handful of literals.", "anchors": ["encoding/readmultipleack.go: Encoder.ReadMultiplePropertyAck, Decoder.ReadMultiplePropertyAck"]}
{"id": "C36", "title": "Property errors inside a multi-read are reported", "statement": "A ReadPropertyMultiple acknowledgement in which a property carries an access error makes the call fail with that error class and code.", "quantifier": "for every object list prefix, class and code", "why_tests_cant": "The input space (all byte strings / all 32-bit values / all list lengths) is infinite or astronomically large; unit tests sample a handful of literals.", "anchors": ["encoding/readmultipleack.go: objectsWithData, bacError"]}
{"id": "C37", "title": "Only replies complete a pending request", "statement": "A datagram completes (successfully or with an error) a pending confirmed request only if it is a reply (SimpleACK, ComplexACK, Error, Reject or Abort) carrying that request's invoke id; requests from peers and network-layer messages never do.", "quantifier": "for every datagram and every set of pending requests", "why_tests_cant": "The input space (all byte strings / all 32-bit values / all list lengths) is infinite or astronomically large; unit tests sample a handful of literals.", "anchors": ["device.go: handleMsg", "tsm/transactions.go: Send"]}
{"id": "C38", "title": "No datagram crashes the process", "statement": "Whatever bytes arrive on the UDP socket, the receive path returns; it does not panic.", "quantifier": "for every datagram and every sender", "why_tests_cant": "The set of hostile packets is unbounded; fuzzing only samples it.", "anchors": ["device.go: handleMsg", "encoding/iam.go", "encoding/appdata.go"]}
{"id": "C39", "title": "Forwarded messages are handled like direct ones", "statement": "An I-Am relayed by a BBMD in a Forwarded-NPDU (with the six-octet originator address) leads to the same discovered device as the same I-Am received directly.", "quantifier": "for every I-Am and originator", "why_tests_cant": "The input space (all byte strings / all 32-bit values / all list lengths) is infinite or astronomically large; unit tests sample a handful of literals.", "anchors": ["device.go: handleMsg", "btypes/bvlc.go"]}
{"id": "C40", "title": "Reject and Abort end the request", "statement": "If the device answers a confirmed request with a Reject or Abort PDU, the waiting call is told so and returns an error without waiting for its timeout.", "quantifier": "for every reject/abort reason and every pending request", "why_tests_cant": "The input space (all byte strings / all 32-bit values / all list lengths) is infinite or astronomically large; unit tests sample a handful of literals.", "anchors": ["encoding/apdu.go: Decoder.APDU", "device.go: handleMsg"]}
{"id": "C41", "title": "Frame kind selection", "statement": "A message for a routed station (hardware address present) or a plain unicast address is sent as Original-Unicast; a message to a broadcast or sub-network broadcast address is sent as Original-Broadcast; an explicit override always wins.", "quantifier": "for every destination address and override", "why_tests_cant": "The property quantifies over every configuration value the caller may pass; tests fix one or two.", "anchors": ["device.go: client.Send", "btypes/address.go: IsBroadcast, IsSubBroadcast"]}
{"id": "C42", "title": "Bounded retransmission", "statement": "A ReadProperty sends at most one request datagram, WriteProperty, ReadPropertyMultiple and WritePropertyMultiple at most two, whatever the network does; no datagram is sent after a reply has been accepted.", "quantifier": "for every sequence of send failures, time-outs, errors and replies", "why_tests_cant": "The sequence of network events is unbounded and adversarial.", "anchors": ["readprop.go", "writeprop.go", "readmulti.go", "writemulti.go"]}
{"id": "C43", "title": "Oversized requests are never transmitted", "statement": "A multi-property request whose encoding exceeds the device's max-APDU is refused with an error and nothing is sent.", "quantifier": "for every device limit and every request", "why_tests_cant": "All request sizes and limits must be covered.", "anchors": ["readmulti.go: multiReadPropertyPacket/sendReadMultipleProperty", "writemulti.go", "btypes/device.go: CheckADPU"]}
{"id": "C44", "title": "The result of a call is what the device answered", "statement": "A read call returns success only with data decoded from a reply delivered for it, returns the device's error when the device answered with an error, and a time-out error when nothing was delivered in any attempt.", "quantifier": "for every sequence of network events", "why_tests_cant": "The sequence of network events is unbounded and adversarial.", "anchors": ["readprop.go", "writeprop.go", "readmulti.go", "writemulti.go"]}
{"id": "C45", "title": "Requests to routed devices carry a valid network header", "statement": "The network header of every request sent to a device behind a router decodes to the device's network number and hardware address.", "quantifier": "for every network number, hardware address and request kind", "why_tests_cant": "The property quantifies over every configuration value the caller may pass; tests fix one or two.", "anchors": ["readprop.go", "writeprop.go", "readmulti.go", "writemulti.go", "btypes/address.go: SetLength", "encoding/npdu.go"]}
{"id": "C46", "title": "Invoke ids of concurrent requests are distinct and valid", "statement": "At every moment the invoke ids of all open transactions are pairwise distinct and lie in 1..254, and at most the configured number of transactions is open.", "quantifier": "for every number of clients and every interleaving", "why_tests_cant": "The outcome depends on the interleaving of goroutines; a test run explores one schedule and cannot exclude the others.", "anchors": ["tsm/transactions.go: New, ID, Put"]}
{"id": "C47", "title": "No invoke id is ever lost", "statement": "In every execution each of the 254 invoke ids is at every moment either free, in the hands of exactly one caller, or open in exactly one transaction; when every caller has finished, all ids and all slots are free again.", "quantifier": "for every number of clients, every interleaving, including cancelled waits", "why_tests_cant": "The outcome depends on the interleaving of goroutines; a test run explores one schedule and cannot exclude the others.", "anchors": ["tsm/transactions.go: ID, Put", "readprop.go: ReadProperty"]}
{"id": "C48", "title": "Replies reach the transaction they were addressed to", "statement": "A reply handed to the transaction manager for invoke id i is received only by the caller whose open transaction has id i at the moment of the hand-over.", "quantifier": "for every interleaving of replies, receivers, releases and reuse", "why_tests_cant": "The outcome depends on the interleaving of goroutines; a test run explores one schedule and cannot exclude the others.", "anchors": ["tsm/transactions.go: Send, Receive, Put"]}
{"id": "C49", "title": "Late or duplicate replies are harmless", "statement": "A reply that arrives twice, or after the caller gave up, does not crash the process.", "quantifier": "for every interleaving of replies, receives and releases", "why_tests_cant": "The outcome depends on the interleaving of goroutines; a test run explores one schedule and cannot exclude the others.", "anchors": ["tsm/transactions.go: Send, Put", "device.go: handleMsg"]}
{"id": "C50", "title": "Waiting callers make progress", "statement": "Whenever a slot is free a caller waiting for a transaction can obtain one: the pool of ids is never empty for a caller that holds a slot, and releasing a transaction never blocks.", "quantifier": "for every configured size up to 254 and every interleaving", "why_tests_cant": "The outcome depends on the interleaving of goroutines; a test run explores one schedule and cannot exclude the others.", "anchors": ["tsm/transactions.go: ID, Put"]}
{"id": "C51", "title": "Subscribers receive exactly the matching messages, in order", "statement": "What a subscriber has received together with what is queued for it is exactly the sequence of messages published since it subscribed whose id lies in its range, in publication order, without loss or duplication.", "quantifier": "for every set of subscribers, every range and every interleaving", "why_tests_cant": "The outcome depends on the interleaving of goroutines; a test run explores one schedule and cannot exclude the others.", "anchors": ["utsm/utsm.go: Publish, newSubscriber, removeSubscriber", "utsm/subscriber.go: Subscribe"]}
{"id": "C52", "title": "Discovery never deadlocks", "statement": "As long as subscribers keep running, publishing a message eventually returns and a subscriber eventually returns.", "quantifier": "for every interleaving of publishers and subscribers", "why_tests_cant": "The outcome depends on the interleaving of goroutines; a test run explores one schedule and cannot exclude the others.", "anchors": ["utsm/utsm.go: Publish, removeSubscriber", "utsm/subscriber.go: getTimeout, Subscribe"]}
{"id": "C53", "title": "Unsubscribing is complete", "statement": "After a subscription call returned, nothing is ever queued for that subscriber again, and other subscribers are unaffected.", "quantifier": "for every interleaving", "why_tests_cant": "The outcome depends on the interleaving of goroutines; a test run explores one schedule and cannot exclude the others.", "anchors": ["utsm/utsm.go: removeSubscriber"]}
{"id": "C54", "title": "Who-Is results: in range, unique, first answer wins", "statement": "The device list returned by WhoIs contains no device twice, only devices whose instance lies in the requested range, each one with the address of its first I-Am, in order of first arrival, and every I-Am received during the call is represented.", "quantifier": "for every sequence of received messages and every requested range", "why_tests_cant": "The input space (all byte strings / all 32-bit values / all list lengths) is infinite or astronomically large; unit tests sample a handful of literals.", "anchors": ["whois.go: client.WhoIs"]}
{"id": "C55", "title": "Object list scan covers every index exactly once", "statement": "When reading an object list of l entries in chunks, the chunks requested are contiguous, each of at most the scan size, and together cover the indices 1..l exactly once.", "quantifier": "for every list length l and every device max-APDU", "why_tests_cant": "The input space (all byte strings / all 32-bit values / all list lengths) is infinite or astronomically large; unit tests sample a handful of literals.", "anchors": ["objectlist.go: objectList, objectsRange"]}
{"id": "C56", "title": "Object information is requested for every object exactly once", "statement": "Name/description reads are issued in groups of at most five and every object found is in exactly one group.", "quantifier": "for every number of objects", "why_tests_cant": "The input space (all byte strings / all 32-bit values / all list lengths) is infinite or astronomically large; unit tests sample a handful of literals.", "anchors": ["objectlist.go: allObjectInformation, objectInformation"]}
{"id": "C57", "title": "Names are attached to the object they belong to", "statement": "After reading object information, each object's name and description are the ones the device returned for that object identifier.", "quantifier": "for every device answer", "why_tests_cant": "The input space (all byte strings / all 32-bit values / all list lengths) is infinite or astronomically large; unit tests sample a handful of literals.", "anchors": ["objectlist.go: objectInformation"]}
{"id": "C58", "title": "The object table contains exactly the listed objects", "statement": "After an object list scan the device's object table contains an entry for (type, instance) exactly when that identifier was listed, and its size is the number of distinct identifiers.", "quantifier": "for every list of object identifiers with repetitions", "why_tests_cant": "The input space (all byte strings / all 32-bit values / all list lengths) is infinite or astronomically large; unit tests sample a handful of literals.", "anchors": ["objectlist.go: objectCopy", "btypes/object_map.go: Len", "btypes/device.go: ObjectSlice"]}
{"id": "C59", "title": "Object tables survive JSON", "statement": "Marshalling an object table to JSON and unmarshalling it gives the same table.", "quantifier": "for every object table", "why_tests_cant": "The input space (all byte strings / all 32-bit values / all list lengths) is infinite or astronomically large; unit tests sample a handful of literals.", "anchors": ["btypes/object_map.go: MarshalJSON, UnmarshalJSON", "btypes/object.go: GetType, String"]}
{"id": "C60", "title": "IP addresses survive the conversion to BACnet addresses", "statement": "Converting a UDP endpoint to a BACnet address and back gives the same IPv4 address and port.", "quantifier": "for every IPv4 address and port", "why_tests_cant": "The input space (all byte strings / all 32-bit values / all list lengths) is infinite or astronomically large; unit tests sample a handful of literals.", "anchors": ["datalink/udp.go: UDPToAddress, IPPortToAddress", "btypes/address.go: UDPAddr"]}
{"id": "C61", "title": "The broadcast address is the last address of the subnet", "statement": "For every host address and prefix length the broadcast address used is the greatest address of the host's subnet and lies in it.", "quantifier": "for every IPv4 address and prefix length 0..32", "why_tests_cant": "The input space (all byte strings / all 32-bit values / all list lengths) is infinite or astronomically large; unit tests sample a handful of literals.", "anchors": ["datalink/udp.go: dataLink, getBroadcast"]}
{"id": "C62", "title": "A client opened by IP uses the given subnet and port", "statement": "NewClient with an IP address, prefix length and port opens a link bound to that address and port in that subnet.", "quantifier": "for every address, prefix length and port", "why_tests_cant": "The property quantifies over every configuration value the caller may pass; tests fix one or two.", "anchors": ["device.go: NewClient", "datalink/udp.go: NewUDPDataLinkFromIP"]}
{"id": "C63", "title": "Port validation", "statement": "A port number is accepted exactly when it lies between 0 and 65535.", "quantifier": "for every integer", "why_tests_cant": "The input space (all byte strings / all 32-bit values / all list lengths) is infinite or astronomically large; unit tests sample a handful of literals.", "anchors": ["helpers/validation/vaildation.go: ValidPort"]}
{"id": "C64", "title": "Priority array: the active value is the one of highest priority", "statement": "The highest-priority value reported for a priority array is the first non-null entry among priorities 1..16 together with its number, and none when all are null.", "quantifier": "for every priority array", "why_tests_cant": "The input space (all byte strings / all 32-bit values / all list lengths) is infinite or astronomically large; unit tests sample a handful of literals.", "anchors": ["btypes/priority/priority.go: BuildFloat32, HighestFloat32"]}
{"id": "C65", "title": "Releasing a priority", "statement": "A priority release is transmitted only for priorities 1..16, as a Null at exactly that priority; every other priority is refused with nothing sent.", "quantifier": "for every priority number and point", "why_tests_cant": "The property quantifies over every configuration value the caller may pass; tests fix one or two.", "anchors": ["network/points.go: PointReleasePriority", "network/write.go: Write"]}
{"id": "C66", "title": "A configured device is addressed as configured", "statement": "A device created with IP, port, device id, network number and MAC is addressed with exactly these values.", "quantifier": "for every configuration", "why_tests_cant": "The property quantifies over every configuration value the caller may pass; tests fix one or two.", "anchors": ["network/device.go: NewDevice", "btypes/device.go: NewDevice", "helpers/ipbytes/ip.go: New"]}
{"id": "C67", "title": "Discovery returns each device once with its own data", "statement": "The devices returned by the network discovery are the devices answered, one entry each with its own address and limits.", "quantifier": "for every list of discovered devices", "why_tests_cant": "The input space (all byte strings / all 32-bit values / all list lengths) is infinite or astronomically large; unit tests sample a handful of literals.", "anchors": ["network/discover.go: DeviceDiscover"]}
{"id": "C68", "title": "Object list of a device is complete", "statement": "Reading a device's objects returns every identifier in its object list, whether the device supports segmented/whole-array reads or only element-wise reads.", "quantifier": "for every object list of any length", "why_tests_cant": "The input space (all byte strings / all 32-bit values / all list lengths) is infinite or astronomically large; unit tests sample a handful of literals.", "anchors": ["network/objects.go: DeviceObjects, deviceObjectsBuilder", "helpers/data/data.go: ToArr"]}
{"id": "C69", "title": "Service table is consistent", "statement": "Each entry of the services-supported table describes the bit at its own position: names are unique, and the position used to test a device's bit string is the bit number the standard assigns.", "quantifier": "for every service", "why_tests_cant": "The input space (all byte strings / all 32-bit values / all list lengths) is infinite or astronomically large; unit tests sample a handful of literals.", "anchors": ["btypes/services/services.go"]}
{"id": "C70", "title": "Property names round-trip", "statement": "Looking a property up by the name the library prints for it gives the same property.", "quantifier": "for every named property", "why_tests_cant": "The input space (all byte strings / all 32-bit values / all list lengths) is infinite or astronomically large; unit tests sample a handful of literals.", "anchors": ["btypes/property.go: Get, String, Keys"]}
{"id": "C71", "title": "Conforming application values are decoded to their meaning", "statement": "The standard encoding of any application value (null, boolean, unsigned, signed, real, double, octet string, character string, bit string, enumerated, date, time, object identifier) is decoded completely and to the value it means.", "quantifier": "for every application value the standard can carry in 32-bit lengths", "why_tests_cant": "The input space (all byte strings / all 32-bit values / all list lengths) is infinite or astronomically large; unit tests sample a handful of literals.", "anchors": ["encoding/appdata.go: Decoder.AppData, AppDataOfTag", "encoding/string.go", "btypes/bitstring.go"]}
{"id": "C72", "title": "Every answer reaches the request it belongs to", "statement": "A SimpleACK, ComplexACK or Error with invoke id i, in a frame with any legal network header, is handed exactly once to the transaction manager for invoke id i, acknowledgements with their octets unchanged.", "quantifier": "for every network header, invoke id, service and content", "why_tests_cant": "The input space (all byte strings / all 32-bit values / all list lengths) is infinite or astronomically large; unit tests sample a handful of literals.", "anchors": ["device.go: handleMsg", "encoding/apdu.go: Decoder.APDU", "encoding/npdu.go: Decoder.NPDU"]}
{"id": "C75", "title": "An I-Am is published once with its sender's address", "statement": "An I-Am in a unicast or broadcast frame is published exactly once, under its device instance, with the values it carries and the sender's address, extended by network number, hardware address and address length for a device behind a router.", "quantifier": "for every I-Am, sender and network header", "why_tests_cant": "The input space (all byte strings / all 32-bit values / all list lengths) is infinite or astronomically large; unit tests sample a handful of literals.", "anchors": ["device.go: handleMsg", "encoding/iam.go: Decoder.IAm"]}
{"id": "C76", "title": "Only well-formed BACnet/IP frames have an effect", "statement": "A datagram whose first octet is not 0x81, whose length field is not its length, or whose function is not one of the handled ones, has no effect.", "quantifier": "for every datagram", "why_tests_cant": "The input space (all byte strings / all 32-bit values / all list lengths) is infinite or astronomically large; unit tests sample a handful of literals.", "anchors": ["device.go: handleMsg", "encoding/bvlc.go: Decoder.BVLC"]}
{"id": "C77", "title": "Segments are not taken for whole answers", "statement": "One segment of a segmented answer never completes the request as if it were the whole answer.", "quantifier": "for every segment", "why_tests_cant": "The input space (all byte strings / all 32-bit values / all list lengths) is infinite or astronomically large; unit tests sample a handful of literals.", "anchors": ["device.go: handleMsg", "encoding/apdu.go: Decoder.APDU"]}
{"id": "C73", "title": "A write succeeds only when it was acknowledged", "statement": "WriteProperty returns success only after a SimpleACK for WriteProperty carrying its invoke id was received.", "quantifier": "for every request, device and sequence of datagrams received", "why_tests_cant": "The input space (all byte strings / all 32-bit values / all list lengths) is infinite or astronomically large; unit tests sample a handful of literals.", "anchors": ["device.go: handleMsg", "writeprop.go: WriteProperty"]}
{"id": "C74", "title": "A read returns the property that was asked for", "statement": "A ReadProperty call succeeds only with the value of the object, property and index requested; an answer about another property is an error.", "quantifier": "for every request and every answer", "why_tests_cant": "The input space (all byte strings / all 32-bit values / all list lengths) is infinite or astronomically large; unit tests sample a handful of literals.", "anchors": ["readprop.go: ReadProperty", "encoding/readprop.go: ReadProperty"]}
{"id": "C78", "title": "A complete read delivers the device's values", "statement": "When a device answers a ReadProperty or ReadPropertyMultiple request in one frame with the right invoke id, under any legal network header, the call transmits the standard request and returns exactly the values in the answer.", "quantifier": "for every request, network header, invoke id and list of readable values", "why_tests_cant": "The input space (all byte strings / all 32-bit values / all list lengths) is infinite or astronomically large; unit tests sample a handful of literals.", "anchors": ["readprop.go", "readmulti.go", "device.go: handleMsg"]}
{"id": "C79", "title": "A complete write", "statement": "When a device acknowledges a WriteProperty request, the call has transmitted the standard request with the value and returns success.", "quantifier": "for every value, network header and invoke id", "why_tests_cant": "The input space (all byte strings / all 32-bit values / all list lengths) is infinite or astronomically large; unit tests sample a handful of literals.", "anchors": ["writeprop.go", "device.go: handleMsg"]}
{"id": "C80", "title": "Invalid requests are refused", "statement": "Reading or writing a property of an object whose type exceeds 1023 is refused by the client with an error and without transmitting anything.", "quantifier": "for every such object", "why_tests_cant": "The input space (all byte strings / all 32-bit values / all list lengths) is infinite or astronomically large; unit tests sample a handful of literals.", "anchors": ["readprop.go", "writeprop.go", "encoding/readprop.go"]}
{"id": "C81", "title": "Request calls return", "statement": "Every read and write call returns a result or an error within its attempts, whatever the other side sends.", "quantifier": "for every sequence of answers", "why_tests_cant": "The input space (all byte strings / all 32-bit values / all list lengths) is infinite or astronomically large; unit tests sample a handful of literals.", "anchors": ["readprop.go", "readmulti.go", "writeprop.go", "writemulti.go", "encoding/readmultipleack.go"]}
{"id": "C82", "title": "Requests that fit are sent", "statement": "A request whose APDU is at most the device's maximum APDU length is transmitted.", "quantifier": "for every request and device limit", "why_tests_cant": "The input space (all byte strings / all 32-bit values / all list lengths) is infinite or astronomically large; unit tests sample a handful of literals.", "anchors": ["readmulti.go", "writemulti.go"]}
{"id": "C83", "title": "One entry per object in an answer", "statement": "Decoding a ReadPropertyMultiple answer yields exactly one entry per object in the answer, whatever the datatypes of the values.", "quantifier": "for every list of objects, results and value elements", "why_tests_cant": "The input space (all byte strings / all 32-bit values / all list lengths) is infinite or astronomically large; unit tests sample a handful of literals.", "anchors": ["encoding/readmultipleack.go: objectsWithData"]}
{"id": "C84", "title": "Components of constructed values have their standard datatype", "statement": "A context-tagged component of a constructed property value is decoded to the value of the datatype the standard assigns to it.", "quantifier": "for every component of the properties in the code's table and every value", "why_tests_cant": "The input space (all byte strings / all 32-bit values / all list lengths) is infinite or astronomically large; unit tests sample a handful of literals.", "anchors": ["encoding/context_tag.go: tagTypeInContext", "encoding/readmultipleack.go: objectsWithData"]}
{"id": "C85", "title": "Date-times in answers", "statement": "A time stamp holding a date and a time is decoded to one value with exactly this date and time.", "quantifier": "for every date and time, anywhere in an answer", "why_tests_cant": "The input space (all byte strings / all 32-bit values / all list lengths) is infinite or astronomically large; unit tests sample a handful of literals.", "anchors": ["encoding/readmultipleack.go: objectsWithData", "encoding/date.go"]}
{"id": "C86", "title": "Malformed results are rejected", "statement": "An answer in which a property has neither value nor error, or with an unmatched closing tag, is rejected with an error.", "quantifier": "for every such answer", "why_tests_cant": "The input space (all byte strings / all 32-bit values / all list lengths) is infinite or astronomically large; unit tests sample a handful of literals.", "anchors": ["encoding/readmultipleack.go: objectsWithData"]}
{"id": "C87", "title": "WhoIsRouterToNetwork returns the announced networks", "statement": "WhoIsRouterToNetwork returns exactly the network numbers listed in the I-Am-Router-To-Network messages received during the call, and receiving such a message does not disturb the process.", "quantifier": "for every sequence of conforming I-Am-Router-To-Network messages, with any number of networks", "why_tests_cant": "The input space (all byte strings / all 32-bit values / all list lengths) is infinite or astronomically large; unit tests sample a handful of literals.", "anchors": ["whoisrouter.go: WhoIsRouterToNetwork", "device.go: handleMsg", "encoding/npdu.go: Decoder.NPDU"]}
{"id": "C88", "title": "WhatIsNetworkNumber returns the announced numbers", "statement": "WhatIsNetworkNumber returns, in order of arrival, the number of every Network-Number-Is message with a legal network number received during the call.", "quantifier": "for every sequence of Network-Number-Is messages and every flag octet", "why_tests_cant": "The input space (all byte strings / all 32-bit values / all list lengths) is infinite or astronomically large; unit tests sample a handful of literals.", "anchors": ["whatnetwork.go: WhatIsNetworkNumber", "device.go: handleMsg", "encoding/npdu.go: Decoder.NPDU"]}
{"id": "C89", "title": "The Who-Is request covers the requested range", "statement": "The datagram sent by WhoIs is a Who-Is, broadcast on the requested network, that asks at least for every device instance the call would accept.", "quantifier": "for all limits and network numbers", "why_tests_cant": "The property quantifies over every configuration value the caller may pass; tests fix one or two.", "anchors": ["whois.go: client.WhoIs", "encoding/whois.go: Encoder.WhoIs"]}
{"id": "C90", "title": "Discovery end to end", "statement": "When I-Am datagrams of any devices (directly or through routers) arrive during a WhoIs call, the call returns the first answer of every device within the limits, in order of arrival, with the transmitted values and the address at which the device can be reached.", "quantifier": "for every list of I-Am datagrams with every legal network header", "why_tests_cant": "The input space (all byte strings / all 32-bit values / all list lengths) is infinite or astronomically large; unit tests sample a handful of literals.", "anchors": ["device.go: handleMsg", "whois.go: client.WhoIs", "utsm/utsm.go: Publish"]}
{"id": "C91", "title": "Reading the objects of a device never crashes", "statement": "Objects returns a table or an error, whatever a device answers to the read requests.", "quantifier": "for every device limit and every sequence of answers", "why_tests_cant": "The input space (all byte strings / all 32-bit values / all list lengths) is infinite or astronomically large; unit tests sample a handful of literals.", "anchors": ["objectlist.go: Objects, objectList, objectInformation"]}
{"id": "C92", "title": "The requests of Objects respect the device's limit", "statement": "Every request Objects makes to a device of any standard APDU limit (50 octets and more) is within the limit and is transmitted.", "quantifier": "for every device limit, object list length and array index", "why_tests_cant": "The input space (all byte strings / all 32-bit values / all list lengths) is infinite or astronomically large; unit tests sample a handful of literals.", "anchors": ["objectlist.go: objectList, objectsRange, objectInformation, allObjectInformation", "readmulti.go: ReadMultiProperty"]}
{"id": "C93", "title": "Objects end to end", "statement": "When a device answers the requests of Objects correctly, in frames with any legal network header, Objects succeeds and returns exactly the objects of its object list with their names and descriptions.", "quantifier": "for every object list, all names and descriptions, every network header and every map iteration order", "why_tests_cant": "The input space (all byte strings / all 32-bit values / all list lengths) is infinite or astronomically large; unit tests sample a handful of literals.", "anchors": ["objectlist.go: Objects", "readmulti.go", "readprop.go", "encoding/readmultiple.go", "device.go: handleMsg"]}
{"id": "C94", "title": "One missing property does not spoil the others", "statement": "When a device reports an error for one property of a ReadPropertyMultiple request, the values of the other properties are still returned.", "quantifier": "for every answer with an access error, at any position", "why_tests_cant": "The input space (all byte strings / all 32-bit values / all list lengths) is infinite or astronomically large; unit tests sample a handful of literals.", "anchors": ["readmulti.go: ReadMultiProperty, sendReadMultipleProperty", "encoding/readmultiple.go"]}
{"id": "C95", "title": "Answers of the announced size are received whole", "statement": "An answer whose APDU is as large as the requests announce (1476 octets) reaches the request it answers unchanged.", "quantifier": "for every answer up to the announced size, with every network header", "why_tests_cant": "The input space (all byte strings / all 32-bit values / all list lengths) is infinite or astronomically large; unit tests sample a handful of literals.", "anchors": ["device.go: NewClient (read buffers), ClientRun", "datalink/udp.go: Receive"]}
{"id": "C96", "title": "The receive loop survives errors", "statement": "Datagrams that arrive after an error reported by the socket are still handled.", "quantifier": "for every stream of datagrams and errors", "why_tests_cant": "The outcome depends on the interleaving of goroutines; a test run explores one schedule and cannot exclude the others.", "anchors": ["device.go: ClientRun"]}
{"id": "C97", "title": "No sender crashes the receive loop", "statement": "A datagram is handed over with the address of its sender, whoever sent it; the receive loop never crashes.", "quantifier": "for every stream of datagrams from any senders", "why_tests_cant": "The input space (all byte strings / all 32-bit values / all list lengths) is infinite or astronomically large; unit tests sample a handful of literals.", "anchors": ["datalink/udp.go: Receive, UDPToAddress", "device.go: ClientRun"]}
{"id": "C98", "title": "Broadcasts go to the port in use", "statement": "Broadcasts are sent to the port the link was opened with.", "quantifier": "for every address, prefix length and port", "why_tests_cant": "The property quantifies over every configuration value the caller may pass; tests fix one or two.", "anchors": ["datalink/udp.go: dataLink"]}
{"id": "C99", "title": "A client opened by interface name uses the interface's IPv4 address", "statement": "NewClient with the name of an interface opens a link with the first IPv4 address of the interface, its subnet and the given port; without an IPv4 address there is an error and no link.", "quantifier": "for every list of interface addresses and every port", "why_tests_cant": "The property quantifies over every configuration value the caller may pass; tests fix one or two.", "anchors": ["device.go: NewClient", "datalink/udp.go: NewUDPDataLink, FindCIDRAddress"]}
{"id": "C100", "title": "Texts of enumeration values", "statement": "For every number of the enumerations for units, segmentation, network messages, error classes and error codes a text is produced without a crash: the identifier having that number, or the type with the number.", "quantifier": "for every number of each type", "why_tests_cant": "The input space (all byte strings / all 32-bit values / all list lengths) is infinite or astronomically large; unit tests sample a handful of literals.", "anchors": ["btypes/units/unit_string.go", "btypes/bacerr/errorcode_string.go", "btypes/bacerr/errorclass_string.go", "btypes/segmentation/segmentedtype_string.go", "btypes/ndpu/networkmessagetype_string.go"]}
{"id": "C101", "title": "Values of a priority array are exact", "statement": "An unsigned entry of a priority array is reported as the number sent.", "quantifier": "for every 32-bit number", "why_tests_cant": "The input space (all byte strings / all 32-bit values / all list lengths) is infinite or astronomically large; unit tests sample a handful of literals.", "anchors": ["btypes/priority/priority.go: BuildFloat32"]}
{"id": "C102", "title": "Network discovery lists every device that answered", "statement": "The network discovery returns the devices of the Who-Is answers, each once and in order, with its identifier, address, network, MAC and vendor, whether or not the follow-up reads succeed.", "quantifier": "for every list of answers and every behaviour of the devices during the reads", "why_tests_cant": "The input space (all byte strings / all 32-bit values / all list lengths) is infinite or astronomically large; unit tests sample a handful of literals.", "anchors": ["network/whois.go: NetworkDiscover", "network/discover.go: DeviceDiscover"]}
{"id": "C103", "title": "Reading a present value as float returns the value answered", "statement": "PointReadFloat32 returns exactly the value the device answers, or an error.", "quantifier": "for every device answer, point and value", "why_tests_cant": "The input space (all byte strings / all 32-bit values / all list lengths) is infinite or astronomically large; unit tests sample a handful of literals.", "anchors": ["network/points.go: PointReadFloat32", "helpers/data/data.go: ToFloat32", "network/read.go: Read"]}
{"id": "C104", "title": "Reading a present value as number returns the value answered", "statement": "PointReadBool and PointReadMultiState return exactly the value the device answers, or an error.", "quantifier": "for every device answer, point and value", "why_tests_cant": "The input space (all byte strings / all 32-bit values / all list lengths) is infinite or astronomically large; unit tests sample a handful of literals.", "anchors": ["network/points.go: PointReadBool, PointReadMultiState", "helpers/data/data.go: ToUint32"]}
{"id": "C105", "title": "Point writes transmit the value in the point's type", "statement": "The point write functions transmit the given value to the present value of the point, in the type the standard assigns to the object type and at the priority of the point, and succeed when the device acknowledges.", "quantifier": "for every point, value, invoke identifier and device", "why_tests_cant": "The input space (all byte strings / all 32-bit values / all list lengths) is infinite or astronomically large; unit tests sample a handful of literals.", "anchors": ["network/points.go: PointWriteAnalogue, PointWriteBool, PointWriteMultiState", "network/write.go: Write", "writeprop.go: WriteProperty"]}
{"id": "C106", "title": "Inputs are not reported as writable", "statement": "isPointWriteable holds exactly for outputs and values; isPointFloat and isPointBool hold exactly for analog and binary points.", "quantifier": "for every point", "why_tests_cant": "The input space (all byte strings / all 32-bit values / all list lengths) is infinite or astronomically large; unit tests sample a handful of literals.", "anchors": ["network/points.go: isPointWriteable, isPointFloat, isPointBool"]}
{"id": "C107", "title": "Failed reads are reported", "statement": "When a read of a point's or device's data fails, the caller is told.", "quantifier": "for every behaviour of the device and every point", "why_tests_cant": "The outcome depends on the interleaving of goroutines; a test run explores one schedule and cannot exclude the others.", "anchors": ["network/points.go: PointDetails, PointReadPriority, PointReadFloat32", "network/strings.go: ReadString"]}
{"id": "C108", "title": "The unit of a point is the unit answered", "statement": "The unit number and text in the point details are those of the unit the device answered.", "quantifier": "for every unit number and name", "why_tests_cant": "The input space (all byte strings / all 32-bit values / all list lengths) is infinite or astronomically large; unit tests sample a handful of literals.", "anchors": ["network/points.go: PointDetails", "btypes/units/unit_string.go"]}
{"id": "C109", "title": "Network discovery keeps what the devices announced", "statement": "The limits (maximum APDU length, segmentation) of a discovered device are those it announced or those it answered when asked.", "quantifier": "for every list of answers and every behaviour of the devices during the reads", "why_tests_cant": "The input space (all byte strings / all 32-bit values / all list lengths) is infinite or astronomically large; unit tests sample a handful of literals.", "anchors": ["network/whois.go: NetworkDiscover, GetDeviceDetails"]}
{"id": "C110", "title": "Names are written and read back exactly", "statement": "Writing a name transmits it as a character string to the object-name property of the object; a name the device answers is returned octet by octet, and anything else is an error.", "quantifier": "for every object, name and device", "why_tests_cant": "The input space (all byte strings / all 32-bit values / all list lengths) is infinite or astronomically large; unit tests sample a handful of literals.", "anchors": ["network/strings.go: ReadDeviceName, WriteDeviceName, ReadPointName, WritePointName", "helpers/data/data.go: ToStr"]}
{"id": "C111", "title": "The store returns what was put into it", "statement": "A device or network put into the store is found under its identifier and usable; other entries are unchanged; asking for the wrong kind or without a network is an error.", "quantifier": "for every store content, identifier and device", "why_tests_cant": "The property quantifies over every configuration value the caller may pass; tests fix one or two.", "anchors": ["network/store.go: NewNetwork, GetNetwork, UpdateDevice, GetDevice", "network/base.go: New", "network/device.go: NewDevice"]}
{"id": "C112", "title": "Points of a device are its objects other than devices", "statement": "GetDevicePoints returns one entry per object of the object list that is not a device object, in order and with its own identifier, and reports a failure to read the object list.", "quantifier": "for every object list and every behaviour of the device", "why_tests_cant": "The input space (all byte strings / all 32-bit values / all list lengths) is infinite or astronomically large; unit tests sample a handful of literals.", "anchors": ["network/discover.go: GetDevicePoints"]}
{"id": "C113", "title": "Learned limits are used", "statement": "The limits learned by asking a device are used in later requests to it.", "quantifier": "for every list of answers", "why_tests_cant": "The input space (all byte strings / all 32-bit values / all list lengths) is infinite or astronomically large; unit tests sample a handful of literals.", "anchors": ["network/objects.go: DeviceObjects", "network/device.go"]}
{"id": "C114", "title": "Discovery returns every device that answered in time", "statement": "While datagrams arrive, are handled by one goroutine each, and other calls run, a WhoIs call that has returned lists exactly the devices within its limits whose I-Am was published while it was waiting, once each, with the values and the address of the first I-Am.", "quantifier": "for every number of concurrent calls and handlers, every sequence of arriving datagrams and every interleaving", "why_tests_cant": "The outcome depends on the interleaving of goroutines; a test run explores one schedule and cannot exclude the others.", "anchors": ["whois.go: WhoIs", "device.go: ClientRun, handleMsg", "utsm/utsm.go: Publish", "utsm/subscriber.go"]}
{"id": "C115", "title": "Discovery calls return", "statement": "Whatever arrives, a WhoIs call returns, and other discovery calls can go on meanwhile.", "quantifier": "for every sequence of arriving datagrams and every interleaving", "why_tests_cant": "The outcome depends on the interleaving of goroutines; a test run explores one schedule and cannot exclude the others.", "anchors": ["whois.go: WhoIs", "utsm/utsm.go: Publish", "utsm/subscriber.go"]}
{"id": "C116", "title": "Concurrent request calls behave as if they were alone", "statement": "A request call (read, write, read multiple, write multiple) that has ended, while any other calls run and any datagrams arrive, has sent exactly the datagrams and returns exactly the result that the same call returns alone for its invoke id and for what happened in its own attempts; a call under way has sent a prefix of these datagrams.", "quantifier": "for every number of concurrent calls and handlers, every sequence of arriving datagrams, time-outs and send failures and every interleaving", "why_tests_cant": "The outcome depends on the interleaving of goroutines; a test run explores one schedule and cannot exclude the others.", "anchors": ["readprop.go: ReadProperty", "writeprop.go: WriteProperty", "readmulti.go: ReadMultiProperty", "writemulti.go: WriteMultiProperty", "tsm/transactions.go"]}
{"id": "C117", "title": "What a call returns is the answer to its request", "statement": "The value a read returns, and the success of a write, come from an acknowledgement that the addressed device sent for this request: from its address, after the request, with its invoke id, for the property asked for.", "quantifier": "for every number of concurrent calls and handlers, every sequence of arriving datagrams and every interleaving", "why_tests_cant": "The outcome depends on the interleaving of goroutines; a test run explores one schedule and cannot exclude the others.", "anchors": ["device.go: handleMsg", "tsm/transactions.go: Send, Receive, Put", "readprop.go: ReadProperty", "writeprop.go: WriteProperty", "readmulti.go: ReadMultiProperty"]}
{"id": "C118", "title": "Requests under way have different invoke ids on the wire", "statement": "At every moment the invoke ids of the request calls under way are pairwise different and between 1 and 254, and every datagram a call has sent carries the invoke id of that call in the place the standard prescribes.", "quantifier": "for every number of concurrent calls and every interleaving, for every kind of request and all arguments", "why_tests_cant": "The outcome depends on the interleaving of goroutines; a test run explores one schedule and cannot exclude the others.", "anchors": ["tsm/transactions.go: ID, Put", "readprop.go: ReadProperty", "encoding/apdu.go: APDU", "encoding/npdu.go: NPDU"]}
{"id": "C119", "title": "A request call under way can always end", "statement": "Whatever state the client is in, a request call under way can return and release its transaction by time-outs alone: no other call, no answer and no handler is needed, except that a call inside Put may have to finish it first.", "quantifier": "for every reachable state of any number of concurrent calls and handlers", "why_tests_cant": "The outcome depends on the interleaving of goroutines; a test run explores one schedule and cannot exclude the others.", "anchors": ["tsm/transactions.go: Receive, Put", "readprop.go: ReadProperty", "writeprop.go: WriteProperty", "readmulti.go: ReadMultiProperty", "writemulti.go: WriteMultiProperty"]}
{"id": "C120", "title": "The discover command saves what it found", "statement": "The results the command discover saves are the devices whose objects were read without error, each once; when it saves them every block was asked for and every device found was read.", "quantifier": "for every number of workers and blocks, every result of the calls of WhoIs and Objects and every interleaving", "why_tests_cant": "The outcome depends on the interleaving of goroutines; a test run explores one schedule and cannot exclude the others.", "anchors": ["cmd/cmd/discover.go: discover"]}
{"id": "C121", "title": "The discover command ends", "statement": "Whatever the calls return and however the goroutines are scheduled, the command discover never sends to a closed channel, never dead-locks, and every execution of it ends with the results saved and all its goroutines ended.", "quantifier": "for every number of workers and blocks, every result of the calls of WhoIs and Objects and every interleaving", "why_tests_cant": "The outcome depends on the interleaving of goroutines; a test run explores one schedule and cannot exclude the others.", "anchors": ["cmd/cmd/discover.go: discover"]}
{"id": "C122", "title": "The discover command asks for every device", "statement": "The blocks of instance numbers the command discover asks for cover all of 0..4194303, each call asking for its own block.", "quantifier": "for every scan size", "why_tests_cant": "The property quantifies over every configuration value the caller may pass; tests fix one or two.", "anchors": ["cmd/cmd/discover.go: discover", "whois.go: WhoIs"]}
{"id": "C123", "title": "The write command writes what was asked", "statement": "The command write writes the value given, in the type of the value that is there, to the property named, at the priority given, on the device given; when a name, a number or a type is not understood it reports an error and writes nothing.", "quantifier": "for all flags, every text, every value the device answers and every behaviour of the device", "why_tests_cant": "The input space (all byte strings / all 32-bit values / all list lengths) is infinite or astronomically large; unit tests sample a handful of literals.", "anchors": ["cmd/cmd/writeprop.go: writeProp", "btypes/property.go: Get", "writeprop.go: WriteProperty"]}
{"id": "C124", "title": "A discovery call whose request could not be sent reports it", "statement": "When the sending of the request of WhoIs, WhatIsNetworkNumber or WhoIsRouterToNetwork fails, the call returns that error, and not an empty list without error; an error that is returned is the one of the send; no goroutine is left behind.", "quantifier": "for all orders of the steps of the two goroutines of a call, every error and every sequence of messages published meanwhile", "why_tests_cant": "The outcome depends on the interleaving of goroutines; a test run explores one schedule and cannot exclude the others.", "anchors": ["whois.go: WhoIs", "whatnetwork.go: WhatIsNetworkNumber", "whoisrouter.go: WhoIsRouterToNetwork", "utsm/subscriber.go: Subscribe"]}
{"id": "C125", "title": "The answers to a discovery request are not missed", "statement": "A message with a number in the range that is published after the request was sent and before the timeout is in the list the call returns.", "quantifier": "for all orders of the steps of the two goroutines of a call and of the messages published", "why_tests_cant": "The outcome depends on the interleaving of goroutines; a test run explores one schedule and cannot exclude the others.", "anchors": ["whois.go: WhoIs", "utsm/subscriber.go: Subscribe", "utsm/utsm.go: Publish"]}
{"id": "C126", "title": "Discovery requests are sent as broadcasts", "statement": "The datagram of a WhoIs, WhatIsNetworkNumber or WhoIsRouterToNetwork call is an Original-Broadcast-NPDU, holding the request.", "quantifier": "for all options, limits, network numbers and interfaces", "why_tests_cant": "The property quantifies over every configuration value the caller may pass; tests fix one or two.", "anchors": ["whois.go: WhoIs", "device.go: client.Send", "btypes/address.go: IsBroadcast, IsSubBroadcast", "whatnetwork.go: WhatIsNetworkNumber", "whoisrouter.go: WhoIsRouterToNetwork"]}
{"id": "C127", "title": "An I-Am sent by the library is understood", "statement": "IAm sends one datagram, and another client of this library that receives it publishes the same device, limits and vendor with the address of the sender.", "quantifier": "for all destinations, devices, limits and vendors", "why_tests_cant": "The input space (all byte strings / all 32-bit values / all list lengths) is infinite or astronomically large; unit tests sample a handful of literals.", "anchors": ["iam.go: IAm", "encoding/iam.go: Encoder.IAm", "device.go: client.Send, handleMsg"]}
{"id": "C128", "title": "The answer to a request under way is not dropped", "statement": "While a request call is under way, an answer with its invoke id that has arrived is not dropped: whatever step comes next, the handler of the datagram still holds it or hands it to the transaction of the call. If the call is waiting it can receive it.", "quantifier": "for all reachable states of the client with any number of calls, handlers and subscribers, and every next step", "why_tests_cant": "The outcome depends on the interleaving of goroutines; a test run explores one schedule and cannot exclude the others.", "anchors": ["device.go: handleMsg", "tsm/transactions.go: Send, Receive"]}
{"id": "C129", "title": "A client that was closed is closed", "statement": "After Close, ClientClose or NetworkClose of a client has returned, its socket is closed, no datagram is handled any more and its receive loops end; closing it changes nothing outside the client.", "quantifier": "for all sequences of starting receive loops, arriving datagrams, errors and closing, in every order", "why_tests_cant": "The outcome depends on the interleaving of goroutines; a test run explores one schedule and cannot exclude the others.", "anchors": ["device.go: ClientClose, Close, ClientRun", "network/base.go: NetworkClose", "datalink/udp.go: Close"]}
{"id": "C130", "title": "A client has one receive loop", "statement": "An open client has one receive loop, whatever is called on it, and every datagram that arrives is handled once, in the order of arrival.", "quantifier": "for all sequences of starting receive loops, arriving datagrams, errors and closing, in every order", "why_tests_cant": "The outcome depends on the interleaving of goroutines; a test run explores one schedule and cannot exclude the others.", "anchors": ["device.go: ClientRun", "network/whois.go: Whois, NetworkDiscover", "network/base.go: NetworkRun"]}
{"id": "C131", "title": "A command that cannot open its interface says so", "statement": "When the interface is unknown, has no IPv4 address, or the port is taken, the commands read, whois, write and multi print an error and send nothing; they do not crash.", "quantifier": "for all flags, interfaces, ports and everything the commands do later", "why_tests_cant": "The property quantifies over every configuration value the caller may pass; tests fix one or two.", "anchors": ["cmd/cmd/writeprop.go: writeProp", "cmd/cmd/readmultiprop.go: readMulti", "cmd/cmd/readprop.go: readProp", "cmd/cmd/whoIs.go: main", "network/base.go: New", "device.go: NewClient, ClientRun"]}
{"id": "C132", "title": "The commands read and whois do their work", "statement": "When the interface can be opened, the commands read and whois make the calls they are written to make.", "quantifier": "for all flags, interfaces, ports and everything the commands do after opening the network", "why_tests_cant": "The property quantifies over every configuration value the caller may pass; tests fix one or two.", "anchors": ["cmd/cmd/readprop.go: readProp", "cmd/cmd/whoIs.go: main", "network/base.go: New"]}
{"id": "C133", "title": "The multi command reads names and values", "statement": "The command multi asks the device given for name and present value of the analog outputs 1 and 2 and prints the values of the answer, if the device accepts a request of that size.", "quantifier": "for all flags, every limit, object list and result of the device", "why_tests_cant": "The input space (all byte strings / all 32-bit values / all list lengths) is infinite or astronomically large; unit tests sample a handful of literals.", "anchors": ["cmd/cmd/readmultiprop.go: readMulti", "readprop.go: ReadProperty", "readmulti.go: ReadMultiProperty", "helpers/data/data.go: ToUint32"]}
{"id": "C134", "title": "A flag that is not given has its announced default", "statement": "When a command runs, the variable of each of its flags holds the value given last on the command line, and the default announced in the help when the flag is not given.", "quantifier": "for all commands, flags and command lines", "why_tests_cant": "The input space (all byte strings / all 32-bit values / all list lengths) is infinite or astronomically large; unit tests sample a handful of literals.", "anchors": ["cmd/cmd/readprop.go: init", "cmd/cmd/writeprop.go: init", "cmd/cmd/readmultiprop.go: init", "cmd/cmd/whoIs.go: init", "cmd/cmd/discover.go: init", "cmd/cmd/root.go: init"]}
{"id": "C135", "title": "Whether decoding a ReadPropertyMultiple answer ends is decided by its length", "statement": "For every octet sequence, decoding it as a ReadPropertyMultiple acknowledgement either returns, crashes or runs for ever, exactly one of the three, and which one (and with what result) shows within one round of every loop more than there are octets; a call whose answer is such an acknowledgement hangs or crashes exactly if the decoder does.", "quantifier": "for all octet sequences, bounds on the rounds, decoder states, requests and scripts of answers", "why_tests_cant": "The input space (all byte strings / all 32-bit values / all list lengths) is infinite or astronomically large; unit tests sample a handful of literals.", "anchors": ["encoding/readmultipleack.go: objectsWithData, ReadMultiplePropertyAck", "encoding/readprop.go: ReadProperty", "readmulti.go: ReadMultiProperty, sendReadMultipleProperty"]}
{"id": "C136", "title": "A device that answers badly does not stop the requests to other devices", "statement": "Whatever a device answers to the requests addressed to it, a goroutine that is in no call can begin a call to another device and get as far as sending its request.", "quantifier": "for all numbers of calling goroutines and slots, interleavings, requests and answers", "why_tests_cant": "The outcome depends on the interleaving of goroutines; a test run explores one schedule and cannot exclude the others.", "anchors": ["tsm/transactions.go: ID, Put", "readmulti.go: ReadMultiProperty", "encoding/readmultipleack.go: objectsWithData", "device.go: NewClient"]}
{"id": "C137", "title": "A subscription ends in time and with all that was published to it", "statement": "A call of Subscribe ends no earlier than the idle timeout after its last message or the overall timeout after its start, no later than the overall timeout, and returns every matching message published while it was subscribed.", "quantifier": "for all timeouts, publishers, subscribers, interleavings and passages of time", "why_tests_cant": "The loss needs a message at the very instant of the deadline, and the overrun two publishers at the right moment; a test with real clocks hits neither except by accident.", "anchors": ["utsm/subscriber.go: Subscribe, getTimeout", "utsm/utsm.go: Publish, newSubscriber, removeSubscriber"]}
{"id": "C138", "title": "A request call returns in time", "statement": "A request call returns within the time to get an id (1 s, ReadMultiProperty 10 s) and 5 s for each attempt (one for ReadProperty, otherwise two), whatever arrives and however many calls are made at once; and it does not report a time-out earlier than 5 s after it began.", "quantifier": "for all executions of the client with a clock, any number of goroutines, slots and datagrams; the upper bound for executions in which time passes only while no calling goroutine can go on", "why_tests_cant": "The outcome depends on the interleaving of goroutines; a test run explores one schedule and cannot exclude the others.", "anchors": ["readprop.go: ReadProperty", "writeprop.go: WriteProperty", "readmulti.go: ReadMultiProperty", "writemulti.go: WriteMultiProperty", "tsm/transactions.go: ID, Receive, Put"]}
{"id": "C139", "title": "A network that was opened can be closed, and one that was not leaves no port taken", "statement": "In every state of a process that opens and closes networks, whatever was opened can be closed by the program, and then its port can be used again; a New or NewNetwork that reports an error or crashes leaves its port free. Two open clients never have the same port.", "quantifier": "for all sequences of New, NewNetwork, GetNetwork, UpdateDevice and NetworkClose calls with any configurations, keys and stores", "why_tests_cant": "The property quantifies over every configuration value the caller may pass; tests fix one or two.", "anchors": ["network/base.go: New, NetworkClose", "network/store.go: NewNetwork, GetNetwork, UpdateDevice", "device.go: NewClient, ClientClose", "datalink/udp.go: dataLink"]}
{"id": "C140", "title": "Networks on different interfaces can be open at the same time", "statement": "A network can be opened on an interface or address while another one, on another interface or address, is open, also with the same port.", "quantifier": "for all states of a process that opens and closes networks, and all configurations", "why_tests_cant": "The property quantifies over every configuration value the caller may pass; tests fix one or two.", "anchors": ["device.go: NewClient", "datalink/udp.go: dataLink", "network/base.go: New"]}
{"id": "C141", "title": "Special months and days of a date are recognised", "statement": "The predicates for odd and even months and for last, odd and even days, applied to any date received, say what the standard says about the octets of that date.", "quantifier": "for all 2^32 octets of a date", "why_tests_cant": "The input space (all byte strings / all 32-bit values / all list lengths) is infinite or astronomically large; unit tests sample a handful of literals.", "anchors": ["encoding/date.go: IsOddMonth, IsEvenMonth, IsLastDayOfMonth, IsEvenDayOfMonth, IsOddDayOfMonth"]}
{"id": "C142", "title": "An answer in time is not reported as a time-out", "statement": "An answer that a handler offers to a waiting request call no later than the deadline of that call ends the attempt; the attempt does not end with a time-out, and the answer does no harm.", "quantifier": "for all executions of the client with a clock in which time passes only while no calling goroutine can go on, any number of goroutines, slots and datagrams", "why_tests_cant": "The outcome depends on the interleaving of goroutines; a test run explores one schedule and cannot exclude the others.", "anchors": ["tsm/transactions.go: Send, Receive, Put", "readprop.go: ReadProperty", "device.go: handleMsg"]}
{"id": "C143", "title": "The memory of the transaction manager is accessed by one goroutine at a time", "statement": "No two goroutines are ever about to access the table of transactions or the channel of a transaction at the same time, one of them writing, without holding the mutex.", "quantifier": "for all executions of the transaction manager with any number of callers, senders, slots", "why_tests_cant": "The outcome depends on the interleaving of goroutines; a test run explores one schedule and cannot exclude the others.", "anchors": ["tsm/transactions.go: ID, Send, Receive, Put"]}
{"id": "C144", "title": "The home directory is found", "statement": "The home directory is the one in HOME, otherwise the one in the password file, otherwise the one the shell reports; an empty directory is never reported, and an error only if none of them helps.", "quantifier": "for all operating systems, environments and outputs of the programs run", "why_tests_cant": "The property quantifies over every configuration value the caller may pass; tests fix one or two.", "anchors": ["helpers/homedir/homedir.go: dirUnix, dirWindows"]}
{"id": "C145", "title": "Dir returns the home directory of the moment", "statement": "Every call of Dir returns what detection gives at some time during the call, whatever other goroutines call Dir and Reset and however the environment changes.", "quantifier": "for all executions with any number of goroutines and changes of the environment", "why_tests_cant": "The outcome depends on the interleaving of goroutines; a test run explores one schedule and cannot exclude the others.", "anchors": ["helpers/homedir/homedir.go: Dir, Reset"]}
{"id": "C146", "title": "Expanded paths lie below the home directory", "statement": "Expand of ~ followed by names of directories and files is the path through these names below the home directory; other paths are left as they are, the home directories of other users are refused.", "quantifier": "for all home directories and lists of names", "why_tests_cant": "The input space (all byte strings / all 32-bit values / all list lengths) is infinite or astronomically large; unit tests sample a handful of literals.", "anchors": ["helpers/homedir/homedir.go: Expand"]}
{"id": "C147", "title": "Settings for interface and port are used", "statement": "A value for interface or port in the configuration file or the environment is used when the flag is not given; a flag that is given prevails.", "quantifier": "for all settings, home directories and command lines", "why_tests_cant": "The property quantifies over every configuration value the caller may pass; tests fix one or two.", "anchors": ["cmd/cmd/root.go: init, initConfig"]}
{"id": "C148", "title": "The value a device sent can be fetched from the answer", "statement": "When a device answers a read with one value, the function of helpers/data for the type of the value returns it: a signed integer with ToInt, a Boolean with ToBool, a double with ToFloat64, a bit string with ToBitString; the functions for other types report that there is none.", "quantifier": "for every device, object, and value of every data type", "why_tests_cant": "The input space (all byte strings / all 32-bit values / all list lengths) is infinite or astronomically large; unit tests sample a handful of literals.", "anchors": ["helpers/data/data.go: ToInt, ToFloat64, ToBool, ToBitString", "encoding/appdata.go: AppDataOfTag"]}
{"id": "C149", "title": "An address text that is accepted is used as this address", "statement": "Every text ValidIP accepts denotes an IP address, and the device or client built from the text is addressed by exactly these octets.", "quantifier": "for every text", "why_tests_cant": "The property quantifies over every configuration value the caller may pass; tests fix one or two.", "anchors": ["helpers/validation/vaildation.go: ValidIP, NormaliseIPAddr", "helpers/ipbytes/ip.go: New", "datalink/udp.go: NewUDPDataLinkFromIP"]}
{"id": "C150", "title": "Address texts are read back", "statement": "The text stored for the address of a device found is read back as this address, and no other text is read as it.", "quantifier": "for all IPv4 addresses and all texts", "why_tests_cant": "The input space (all byte strings / all 32-bit values / all list lengths) is infinite or astronomically large; unit tests sample a handful of literals.", "anchors": ["whois.go: WhoIs", "btypes/device.go: NewDevice", "helpers/ipbytes/ip.go: pack32BinaryIP4"]}
{"id": "C151", "title": "Address and prefix length of a configuration are read as given", "statement": "From an address text and a prefix length the data link reads the network of the address the text denotes with this length; it refuses when the text denotes no address or the length is out of range, and ValidCIDR says exactly this.", "quantifier": "for every text and every integer", "why_tests_cant": "The property quantifies over every configuration value the caller may pass; tests fix one or two.", "anchors": ["datalink/udp.go: NewUDPDataLinkFromIP, dataLink", "helpers/validation/vaildation.go: ValidCIDR"]}
{"id": "C152", "title": "The text of an object identifier identifies the object", "statement": "Two different object identifiers never have the same text.", "quantifier": "for all pairs of object identifiers", "why_tests_cant": "The input space (all byte strings / all 32-bit values / all list lengths) is infinite or astronomically large; unit tests sample a handful of literals.", "anchors": ["btypes/object.go: ObjectID.String"]}
{"id": "C153", "title": "A printed answer tells which property was read", "statement": "The texts of two answers with one property and equal values differ when the objects, the indexes or the properties differ.", "quantifier": "for all objects, properties, indexes and values", "why_tests_cant": "The input space (all byte strings / all 32-bit values / all list lengths) is infinite or astronomically large; unit tests sample a handful of literals.", "anchors": ["btypes/property.go: MultiplePropertyData.String, String"]}
{"id": "C154", "title": "Fetching a value after a failed read does not crash", "statement": "The functions of helpers/data report that there is no value when the read failed.", "quantifier": "for every error of a read and every answer of a device", "why_tests_cant": "The input space (all byte strings / all 32-bit values / all list lengths) is infinite or astronomically large; unit tests sample a handful of literals.", "anchors": ["helpers/data/data.go: ToBitString, ToArr"]}
{"id": "C155", "title": "The memory of the subscription manager is accessed by one goroutine at a time", "statement": "No two goroutines in Publish and Subscribe are ever about to access the list of subscribers or a field of a subscriber at the same time, one of them writing, without a mutex that both hold; the mutexes are held by one goroutine at a time.", "quantifier": "for all executions with any number of publishers, subscribers, ranges and messages", "why_tests_cant": "The outcome depends on the interleaving of goroutines; a test run explores one schedule and cannot exclude the others.", "anchors": ["utsm/utsm.go: Publish, newSubscriber, removeSubscriber", "utsm/subscriber.go: Subscribe, getTimeout"]}
{"id": "C156", "title": "The results of the discover command are read when they are complete", "statement": "When the command saves its results no other goroutine is about to write them, and they contain everything that was found.", "quantifier": "for all executions with any number of workers, calls, devices", "why_tests_cant": "The outcome depends on the interleaving of goroutines; a test run explores one schedule and cannot exclude the others.", "anchors": ["cmd/cmd/discover.go: discover"]}
{"id": "C157", "title": "The text of a bit string tells its bits", "statement": "Every bit string received has a text, and two bit strings have the same text exactly if they have the same bits.", "quantifier": "for all contents of bit strings", "why_tests_cant": "The input space (all byte strings / all 32-bit values / all list lengths) is infinite or astronomically large; unit tests sample a handful of literals.", "anchors": ["btypes/bitstring.go: String, GetValue", "encoding/decoder.go: bitString"]}
{"id": "C158", "title": "What was set in a control octet is read from it", "statement": "After any sequence of calls of the setters of the control octet of the network or of the application header, in any order, each flag, the priority and the type read as they were set last.", "quantifier": "for all sequences of calls and all values set", "why_tests_cant": "The input space (all byte strings / all 32-bit values / all list lengths) is infinite or astronomically large; unit tests sample a handful of literals.", "anchors": ["encoding/npdu.go: SetPriority, setInfoMask, checkMask", "encoding/apdu.go: setDataType, DataType", "encoding/general.go: setInfoMask"]}
{"id": "C159", "title": "An address is taken for what it was declared to be", "statement": "Whatever an address holds, after SetBroadcast(true) it is a broadcast address and no unicast address and frames sent to it carry the broadcast function; after SetBroadcast(false) it is a unicast address and no broadcast address and frames carry the unicast function; nothing else changes.", "quantifier": "for all addresses and declarations", "why_tests_cant": "The input space (all byte strings / all 32-bit values / all list lengths) is infinite or astronomically large; unit tests sample a handful of literals.", "anchors": ["btypes/address.go: IsBroadcast, SetBroadcast, IsSubBroadcast, IsUnicast", "send.go: Send"]}
{"id": "C160", "title": "The octets of a bit string are those received", "statement": "For a bit string received, BytesUsed is the number of its octets, BitsCapacity eight times that, Byte(i) has the bits 8i to 8i+7 in order from the least significant, and is 0 for octets that were not received.", "quantifier": "for all contents of bit strings and all octet numbers", "why_tests_cant": "The input space (all byte strings / all 32-bit values / all list lengths) is infinite or astronomically large; unit tests sample a handful of literals.", "anchors": ["btypes/bitstring.go: BytesUsed, Byte, BitsCapacity", "encoding/decoder.go: bitString"]}
