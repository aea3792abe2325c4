{
 "claims": [
  {
   "property": "C01",
   "status": "proved",
   "theorems": [
    "Bac.Props.C01_tag_roundtrip",
    "Bac.Props.C01_opening_roundtrip",
    "Bac.Props.C01_closing_roundtrip"
   ],
   "note": "all tag numbers, classes, lengths, continuations"
  },
  {
   "property": "C02",
   "status": "proved",
   "theorems": [
    "Bac.Props.C02_tag_layout"
   ],
   "note": ""
  },
  {
   "property": "C03",
   "status": "proved",
   "theorems": [
    "Bac.Props.C03_context_unsigned_layout",
    "Bac.Props.C03_unsigned_minimal",
    "Bac.Props.C03_unsigned_roundtrip"
   ],
   "note": ""
  },
  {
   "property": "C04",
   "status": "partial",
   "theorems": [
    "Bac.Props.C04_fails_alias",
    "Bac.Props.C04_objectid_exact",
    "Bac.Props.C04_objectid_roundtrip_partial",
    "Bac.Props.C04_roundtrip_iff_valid",
    "Bac.Props.C04_objectid_injective_partial"
   ],
   "note": "the code masks out-of-range identifiers without an error, so the claim is false as stated (C04_fails_alias); proved for all representable identifiers, and that these are exactly the ones that round-trip"
  },
  {
   "property": "C05",
   "status": "partial",
   "theorems": [
    "Bac.Props.C05_int_exact",
    "Bac.Props.C05_fails_int",
    "Bac.Props.C05_roundtrip_partial",
    "Bac.Props.C05_int_iff",
    "Bac.Props.C05_enumerated",
    "Bac.Props.C05_exact"
   ],
   "note": "false as stated: int32 200 comes back as -56 (C05_fails_int); proved for every supported value outside 128..255 and 32768..65535 signed, and that these are exactly the failing signed values; Enumerated comes back as uint32; out-of-range object identifiers and strings of 4 GiB are excluded; C05_exact: over all values, exactly which come back"
  },
  {
   "property": "C06",
   "status": "partial",
   "theorems": [
    "Bac.Props.C06_fails_double",
    "Bac.Props.C06_length_partial",
    "Bac.Props.C06_bool",
    "Bac.Props.C06_conforming_encoding",
    "Bac.Props.C06_exact"
   ],
   "note": "false for every float64 (announces 4 octets, writes 8); proved for all other supported types; octets also shown equal to the standard's encoding; C06_exact: of all accepted values exactly float64"
  },
  {
   "property": "C07",
   "status": "proved",
   "theorems": [
    "Bac.Props.C07_refused",
    "Bac.Props.C07_error_sticky",
    "Bac.Props.C07_unsupported_then_anything"
   ],
   "note": "operations of one encoder in any sequence; the binary-object flag path is covered by the sticky theorem only when it returns"
  },
  {
   "property": "C08",
   "status": "partial",
   "theorems": [
    "Bac.Props.C08_fails_three",
    "Bac.Props.C08_signed_partial",
    "Bac.Props.C08_signed_three_exact"
   ],
   "note": "three-octet integers are never sign-extended; 1, 2 and 4 octets proved; three octets characterised exactly"
  },
  {
   "property": "C09",
   "status": "partial",
   "theorems": [
    "Bac.Props.C09_fails_crash",
    "Bac.Props.C09_crash_iff",
    "Bac.Props.C09_no_crash_partial"
   ],
   "note": "three crashing inputs given; the crashing inputs are characterised exactly, every other input returns"
  },
  {
   "property": "C10",
   "status": "partial",
   "theorems": [
    "Bac.Props.C10_exact",
    "Bac.Props.C10_fails_empty",
    "Bac.Props.C10_fails_header",
    "Bac.Props.C10_truncated_partial"
   ],
   "note": "the empty prefix decodes as Null without error, a string cut inside its tag header crashes; every other proper prefix is reported"
  },
  {
   "property": "C11",
   "status": "partial",
   "theorems": [
    "Bac.Props.C11_exact",
    "Bac.Props.C11_fails_skip0",
    "Bac.Props.C11_failure_final_partial",
    "Bac.Props.C11_reads_zero"
   ],
   "note": "Skip(0) clears the error; proved for all operation sequences without Skip(0)"
  },
  {
   "property": "C12",
   "status": "partial",
   "theorems": [
    "Bac.Props.C12_bitstring_partial",
    "Bac.Props.C12_exact",
    "Bac.Props.C12_crash_iff",
    "Bac.Props.C12_fails_long",
    "Bac.Props.C12_fails_crash"
   ],
   "note": "up to 15 octets proved for all contents; longer ones decode empty, and no octets with unused bits crash on reading"
  },
  {
   "property": "C13",
   "status": "partial",
   "theorems": [
    "Bac.Props.C13_set_get_partial",
    "Bac.Props.C13_fails",
    "Bac.Props.C13_crash_iff",
    "Bac.Props.C13_exact"
   ],
   "note": "all positions within the allocated octets; beyond them SetBit crashes or is lost; C13_crash_iff and C13_exact say exactly where"
  },
  {
   "property": "C14",
   "status": "partial",
   "theorems": [
    "Bac.Props.C14_fails_year",
    "Bac.Props.C14_date_partial",
    "Bac.Props.C14_time"
   ],
   "note": "year is 1990+y instead of 1900+y, unspecified year not kept; other fields, times and re-encoding proved"
  },
  {
   "property": "C15",
   "status": "partial",
   "theorems": [
    "Bac.Props.C15_fails",
    "Bac.Props.C15_octet_partial",
    "Bac.Props.C15_exact_survive",
    "Bac.Props.C15_exact"
   ],
   "note": "above 1476 octets the octet advertises 50, and 0 segments become 1; everything else proved; C15_exact is the equivalence"
  },
  {
   "property": "C16",
   "status": "partial",
   "theorems": [
    "Bac.Props.C16_frame_partial",
    "Bac.Props.C16_roundtrip_partial",
    "Bac.Props.C16_decode",
    "Bac.Props.C16_fails_long",
    "Bac.Props.C16_exact"
   ],
   "note": "proved for every payload below 65532 octets; above that the length field wraps without an error (C16_fails_long); C16_exact is the equivalence"
  },
  {
   "property": "C17",
   "status": "partial",
   "theorems": [
    "Bac.Props.C17_layout",
    "Bac.Props.C17_roundtrip_partial",
    "Bac.Props.C17_exact",
    "Bac.Props.C17_fails_vendor",
    "Bac.Props.C17_fails_networkIs"
   ],
   "note": "layout of clause 6.2 for all headers; round trip for all except network message types 0x80, 0x13 and 0x01, for which it is false"
  },
  {
   "property": "C18",
   "status": "proved",
   "theorems": [
    "Bac.Props.C18_total"
   ],
   "note": ""
  },
  {
   "property": "C19",
   "status": "partial",
   "theorems": [
    "Bac.Props.C19_fails_one",
    "Bac.Props.C19_fails_three",
    "Bac.Props.C19_two_or_more",
    "Bac.Props.C19_two_partial",
    "Bac.Props.C19_exact"
   ],
   "note": "false for one network (error) and for three or more (rest dropped); exactly two networks proved; C19_exact: exactly the messages with two or more networks that name no third"
  },
  {
   "property": "C20",
   "status": "partial",
   "theorems": [
    "Bac.Props.C20_confirmed",
    "Bac.Props.C20_confirmed_layout",
    "Bac.Props.C20_unconfirmed",
    "Bac.Props.C20_complexAck_partial",
    "Bac.Props.C20_fails_segmented",
    "Bac.Props.C20_refused"
   ],
   "note": "segments of complex acknowledgements lose sequence number and window; everything else proved"
  },
  {
   "property": "C21",
   "status": "partial",
   "theorems": [
    "Bac.Props.C21_exact",
    "Bac.Props.C21_fails",
    "Bac.Props.C21_services_partial",
    "Bac.Props.C21_constructed_partial"
   ],
   "note": "for every class but 5 the code reported is 0x91; class 5 and the constructed form proved"
  },
  {
   "property": "C22",
   "status": "partial",
   "theorems": [
    "Bac.Props.C22_fails",
    "Bac.Props.C22_limits_partial",
    "Bac.Props.C22_unlimited",
    "Bac.Props.C22_exact"
   ],
   "note": "limits equal to 4194303 are dropped (C22_fails); all smaller limits proved; C22_exact is the equivalence"
  },
  {
   "property": "C23",
   "status": "proved",
   "theorems": [
    "Bac.Props.C23_iam"
   ],
   "note": "octets also shown equal to the standard's"
  },
  {
   "property": "C24",
   "status": "proved",
   "theorems": [
    "Bac.Props.C24_request"
   ],
   "note": ""
  },
  {
   "property": "C25",
   "status": "partial",
   "theorems": [
    "Bac.Props.C25_exact",
    "Bac.Props.C25_fails_read",
    "Bac.Props.C25_fails_multiple",
    "Bac.Props.C25_write_partial"
   ],
   "note": "ReadProperty drops the error and sends the bare header, the multiple services alias the type; refused only by WriteProperty and the acknowledgement encoder"
  },
  {
   "property": "C26",
   "status": "partial",
   "theorems": [
    "Bac.Props.C26_fails",
    "Bac.Props.C26_roundtrip_partial"
   ],
   "note": "the value is closed with tag 4 for every input (C26_fails); round trip through the library's own decoder proved for the value kinds of C05"
  },
  {
   "property": "C27",
   "status": "partial",
   "theorems": [
    "Bac.Props.C27_values_partial",
    "Bac.Props.C27_exact"
   ],
   "note": "holds exactly (C27_exact) for the values of the kinds of C71; dates, long bit strings and 3-octet negative integers are misread (C08, C12, C14)"
  },
  {
   "property": "C28",
   "status": "proved",
   "theorems": [
    "Bac.Props.C28_terminates"
   ],
   "note": ""
  },
  {
   "property": "C29",
   "status": "partial",
   "theorems": [
    "Bac.Props.C29_layout_partial",
    "Bac.Props.C29_value_exact",
    "Bac.Props.C29_exact"
   ],
   "note": "all values except float64 and int32 (see C05, C06); C29_exact: wrong exactly for float64 and for int32 in -8388608..-1, 128..255, 32768..65535 and 8388608..16777215"
  },
  {
   "property": "C30",
   "status": "partial",
   "theorems": [
    "Bac.Props.C30_crash_iff",
    "Bac.Props.C30_fails"
   ],
   "note": "false; the crashing calls are characterised exactly, all others return"
  },
  {
   "property": "C31",
   "status": "proved",
   "theorems": [
    "Bac.Props.C31_layout"
   ],
   "note": "for valid object identifiers; others are the subject of C25"
  },
  {
   "property": "C32",
   "status": "partial",
   "theorems": [
    "Bac.Props.C32_layout_partial",
    "Bac.Props.C32_fails",
    "Bac.Props.C32_exact"
   ],
   "note": "every write with a priority uses context tag 2 instead of 3; without priorities proved; C32_exact: exactly the requests without any priority"
  },
  {
   "property": "C33",
   "status": "partial",
   "theorems": [
    "Bac.Props.C33_complete_partial",
    "Bac.Props.C33_fails",
    "Bac.Props.C33_verdict",
    "Bac.Props.C33_ends",
    "Bac.Props.C33_exact"
   ],
   "note": "any lists of objects, properties and values of the kinds of C71; an object with an empty result list makes the whole answer an error (C33_fails). C33_verdict says what becomes of every conforming answer without constructed values, C33_exact which are decoded as they are meant"
  },
  {
   "property": "C34",
   "status": "partial",
   "theorems": [
    "Bac.Props.C34_fails_truncated",
    "Bac.Props.C34_fails_constructed",
    "Bac.Props.C34_terminates_partial"
   ],
   "note": "false: truncated answers and conforming answers with constructed values loop forever, proved for all such inputs; readable answers terminate"
  },
  {
   "property": "C35",
   "status": "partial",
   "theorems": [
    "Bac.Props.C35_fails",
    "Bac.Props.C35_fails_null",
    "Bac.Props.C35_empty_partial",
    "Bac.Props.C35_layout",
    "Bac.Props.C35_refused"
   ],
   "note": "false: values are written without tag and twice; only the empty answer survives. Proved: exactly which octets are written, and when the encoder refuses or crashes"
  },
  {
   "property": "C36",
   "status": "proved",
   "theorems": [
    "Bac.Props.C36_access_error"
   ],
   "note": "after any readable objects and results (C33), before any octets"
  },
  {
   "property": "C37",
   "status": "partial",
   "theorems": [
    "Bac.Props.C37_exact",
    "Bac.Props.C37_fails_request",
    "Bac.Props.C37_fails_network",
    "Bac.Props.C37_fails_forwarded",
    "Bac.Props.C37_origin_partial",
    "Bac.Props.C37_once"
   ],
   "note": "peers' confirmed requests, a network layer message and forwarded frames complete pending requests; what is delivered is characterised for every datagram"
  },
  {
   "property": "C38",
   "status": "partial",
   "theorems": [
    "Bac.Props.C38_fails",
    "Bac.Props.C38_partial",
    "Bac.Props.C38_iam_exact"
   ],
   "note": "two crashing datagrams given; every other datagram shown to return, I-Ams exactly characterised by C09"
  },
  {
   "property": "C39",
   "status": "partial",
   "theorems": [
    "Bac.Props.C39_fails",
    "Bac.Props.C39_fails_private",
    "Bac.Props.C39_short",
    "Bac.Props.C39_exact"
   ],
   "note": "C39_exact: a forwarded frame is read as a broadcast message that begins with the six octets of the originator; false for large classes of originators; nothing to prove positively as the six octets are never skipped"
  },
  {
   "property": "C40",
   "status": "partial",
   "theorems": [
    "Bac.Props.C40_fails"
   ],
   "note": "false for every Reject and Abort"
  },
  {
   "property": "C41",
   "status": "proved",
   "theorems": [
    "Bac.Props.C41_kind"
   ],
   "note": ""
  },
  {
   "property": "C42",
   "status": "proved",
   "theorems": [
    "Bac.Props.C42_bound",
    "Bac.Props.C42_settled"
   ],
   "note": ""
  },
  {
   "property": "C43",
   "status": "partial",
   "theorems": [
    "Bac.Props.C43_sent_partial",
    "Bac.Props.C43_refused_partial",
    "Bac.Props.C43_fails_huge",
    "Bac.Props.C43_exact"
   ],
   "note": "encodings of 2^32 octets and more pass the check because the length is truncated (C43_fails_huge); all smaller requests proved; C43_exact: transmitted exactly if the number of octets modulo 2^32 is within the limit"
  },
  {
   "property": "C44",
   "status": "partial",
   "theorems": [
    "Bac.Props.C44_read_success",
    "Bac.Props.C44_readMulti_success",
    "Bac.Props.C44_timeout",
    "Bac.Props.C44_error",
    "Bac.Props.C44_multi_error_partial",
    "Bac.Props.C44_fails_multi",
    "Bac.Props.C44_exact"
   ],
   "note": "after an error from the device the multiple calls retry and report a later time-out instead (C44_fails_multi); the single calls proved"
  },
  {
   "property": "C45",
   "status": "partial",
   "theorems": [
    "Bac.Props.C45_header_partial",
    "Bac.Props.C45_fails_long",
    "Bac.Props.C45_writeMulti_partial",
    "Bac.Props.C45_fails_writeMulti",
    "Bac.Props.C45_fails_discovered",
    "Bac.Props.C45_exact",
    "Bac.Props.C45_writeMulti_exact"
   ],
   "note": "one-octet hardware addresses proved; longer ones, WritePropertyMultiple and discovered routed devices are misaddressed; C45_exact and C45_writeMulti_exact are the equivalences"
  },
  {
   "property": "C46",
   "status": "proved",
   "theorems": [
    "Bac.Props.C46_distinct"
   ],
   "note": ""
  },
  {
   "property": "C47",
   "status": "proved",
   "theorems": [
    "Bac.Props.C47_conserved",
    "Bac.Props.C47_exactly_one",
    "Bac.Props.C47_all_back",
    "Bac.Props.C47_found"
   ],
   "note": ""
  },
  {
   "property": "C48",
   "status": "partial",
   "theorems": [
    "Bac.Props.C48_fails",
    "Bac.Props.C48_addressed_partial",
    "Bac.Props.C48_no_nil"
   ],
   "note": "false: the state object is reused while a sender still holds it (C48_fails); proved for every hand-over without such a reuse"
  },
  {
   "property": "C49",
   "status": "partial",
   "theorems": [
    "Bac.Props.C49_fails",
    "Bac.Props.C49_fails_datagrams",
    "Bac.Props.C49_fails_late",
    "Bac.Props.C49_doomed",
    "Bac.Props.C49_no_crash_partial",
    "Bac.Props.C49_exact",
    "Bac.Props.C49_cause"
   ],
   "note": "false: duplicate and late answers crash the process on release; proved for executions without an answer overlapping a release"
  },
  {
   "property": "C50",
   "status": "proved",
   "theorems": [
    "Bac.Props.C50_id",
    "Bac.Props.C50_no_block",
    "Bac.Props.C50_release",
    "Bac.Props.C50_obtain"
   ],
   "note": "as possibility of progress in every reachable state; fairness of the scheduler is not modelled"
  },
  {
   "property": "C51",
   "status": "proved",
   "theorems": [
    "Bac.Props.C51_exact",
    "Bac.Props.C51_under_way",
    "Bac.Props.C51_returned"
   ],
   "note": ""
  },
  {
   "property": "C52",
   "status": "partial",
   "theorems": [
    "Bac.Props.C52_fails",
    "Bac.Props.C52_fails_timeout",
    "Bac.Props.C52_dead_forever",
    "Bac.Props.C52_completes_partial",
    "Bac.Props.C52_exact"
   ],
   "note": "false: two reachable deadlocks, shown to be permanent for all publishers and subscribers; otherwise a publication can be completed"
  },
  {
   "property": "C53",
   "status": "proved",
   "theorems": [
    "Bac.Props.C53_gone",
    "Bac.Props.C53_others"
   ],
   "note": ""
  },
  {
   "property": "C54",
   "status": "partial",
   "theorems": [
    "Bac.Props.C54_unique",
    "Bac.Props.C54_range",
    "Bac.Props.C54_first",
    "Bac.Props.C54_complete",
    "Bac.Props.C54_ip",
    "Bac.Props.C54_unlimited",
    "Bac.Props.C54_fails_all",
    "Bac.Props.C54_fails_zero"
   ],
   "note": "with respect to the range subscribed to; the documented ArrayAll limits never return anything (C54_fails_all), the range 0..0 means everything (C54_fails_zero)"
  },
  {
   "property": "C55",
   "status": "partial",
   "theorems": [
    "Bac.Props.C55_covers_partial",
    "Bac.Props.C55_fails",
    "Bac.Props.C55_exact"
   ],
   "note": "devices accepting less than 20 octets (or of unknown limit 0) make the division panic; all others proved, whatever they answer"
  },
  {
   "property": "C56",
   "status": "partial",
   "theorems": [
    "Bac.Props.C56_groups_partial",
    "Bac.Props.C56_fails",
    "Bac.Props.C56_fails_empty",
    "Bac.Props.C56_exact"
   ],
   "note": "C56_exact: exactly the objects of types up to 128 are asked about, each once; objects of types above 128 are never asked about, and a group of only such objects sends an empty request; the standard types proved"
  },
  {
   "property": "C57",
   "status": "partial",
   "theorems": [
    "Bac.Props.C57_names_partial",
    "Bac.Props.C57_fails",
    "Bac.Props.C57_exact"
   ],
   "note": "C57_exact: the names are right exactly if the texts come in the order of the request; proved for devices answering in the order of the request; answers in another order exchange the names"
  },
  {
   "property": "C58",
   "status": "proved",
   "theorems": [
    "Bac.Props.C58_table"
   ],
   "note": "for devices that accept at least 20 octets (others: C55)"
  },
  {
   "property": "C59",
   "status": "partial",
   "theorems": [
    "Bac.Props.C59_exact",
    "Bac.Props.C59_marshal",
    "Bac.Props.C59_partial",
    "Bac.Props.C59_fails_unknown",
    "Bac.Props.C59_fails_nil"
   ],
   "note": "false for types without a name (they become analog inputs) and for a table that was not made before (crash); tables of named types proved, the package json taken as faithful"
  },
  {
   "property": "C60",
   "status": "proved",
   "theorems": [
    "Bac.Props.C60_there_and_back",
    "Bac.Props.C60_back_and_there"
   ],
   "note": ""
  },
  {
   "property": "C61",
   "status": "proved",
   "theorems": [
    "Bac.Props.C61_broadcast"
   ],
   "note": ""
  },
  {
   "property": "C62",
   "status": "partial",
   "theorems": [
    "Bac.Props.C62_fails",
    "Bac.Props.C62_fails_swapped",
    "Bac.Props.C62_fails_port",
    "Bac.Props.C62_fails_ipv6",
    "Bac.Props.C62_link_partial",
    "Bac.Props.C62_exact"
   ],
   "note": "false: NewClient passes port and prefix length in each other's place; the data link itself is right for valid ports but is bound to all interfaces"
  },
  {
   "property": "C63",
   "status": "proved",
   "theorems": [
    "Bac.Props.C63_ports",
    "Bac.Props.C63_cidr"
   ],
   "note": ""
  },
  {
   "property": "C64",
   "status": "partial",
   "theorems": [
    "Bac.Props.C64_exact",
    "Bac.Props.C64_crash_iff",
    "Bac.Props.C64_fails_real",
    "Bac.Props.C64_fails_number",
    "Bac.Props.C64_partial"
   ],
   "note": "false: crashes for REAL entries, the number is not returned; proved for arrays of Null and unsigned entries from the octets"
  },
  {
   "property": "C65",
   "status": "partial",
   "theorems": [
    "Bac.Props.C65_exact",
    "Bac.Props.C65_refused",
    "Bac.Props.C65_release_partial",
    "Bac.Props.C65_fails_type"
   ],
   "note": "false only for object types above 1023"
  },
  {
   "property": "C66",
   "status": "partial",
   "theorems": [
    "Bac.Props.C66_exact",
    "Bac.Props.C66_partial",
    "Bac.Props.C66_fails_port",
    "Bac.Props.C66_fails_ip",
    "Bac.Props.C66_fails_number",
    "Bac.Props.C66_fails_id"
   ],
   "note": "false: port dropped, device id not set, wrong hosts; address, network and MAC proved in range"
  },
  {
   "property": "C67",
   "status": "partial",
   "theorems": [
    "Bac.Props.C67_exact",
    "Bac.Props.C67_same",
    "Bac.Props.C67_fails",
    "Bac.Props.C67_partial"
   ],
   "note": "false: all entries are the same device"
  },
  {
   "property": "C68",
   "status": "partial",
   "theorems": [
    "Bac.Props.C68_exact_elements",
    "Bac.Props.C68_exact_whois",
    "Bac.Props.C68_exact",
    "Bac.Props.C68_whole_partial",
    "Bac.Props.C68_fails_single",
    "Bac.Props.C68_elements_partial",
    "Bac.Props.C68_fails_element",
    "Bac.Props.C68_fails_crash"
   ],
   "note": "false for one-object lists; proved for whole reads of 2 and more and for element reads"
  },
  {
   "property": "C69",
   "status": "partial",
   "theorems": [
    "Bac.Props.C69_numbers",
    "Bac.Props.C69_lookup",
    "Bac.Props.C69_fails"
   ],
   "note": "names and numbers agree with the standard, the positions do so only for the first thirteen services"
  },
  {
   "property": "C70",
   "status": "partial",
   "theorems": [
    "Bac.Props.C70_names",
    "Bac.Props.C70_fails",
    "Bac.Props.C70_keys_partial"
   ],
   "note": "false for every property: the printed text is never accepted; the keys are consistent"
  },
  {
   "property": "C71",
   "status": "partial",
   "theorems": [
    "Bac.Props.C71_conforming_value_partial",
    "Bac.Props.C71_exact",
    "Bac.Props.C71_fails_date"
   ],
   "note": "exactly dates, 3-octet negative integers and bit strings over 15 octets are misread"
  },
  {
   "property": "C72",
   "status": "proved",
   "theorems": [
    "Bac.Props.C72_acks",
    "Bac.Props.C72_errors"
   ],
   "note": ""
  },
  {
   "property": "C73",
   "status": "partial",
   "theorems": [
    "Bac.Props.C73_received_partial",
    "Bac.Props.C73_fails_request",
    "Bac.Props.C73_fails_other",
    "Bac.Props.C73_exact"
   ],
   "note": "any delivered octets count: peers' requests and acknowledgements of other services included; without a delivery no success"
  },
  {
   "property": "C74",
   "status": "partial",
   "theorems": [
    "Bac.Props.C74_fails"
   ],
   "note": "false for every answer about another property"
  },
  {
   "property": "C75",
   "status": "partial",
   "theorems": [
    "Bac.Props.C75_exact",
    "Bac.Props.C75_direct",
    "Bac.Props.C75_fails_length",
    "Bac.Props.C75_zero"
   ],
   "note": "all but the address length of routed devices, which stays the sender's"
  },
  {
   "property": "C76",
   "status": "partial",
   "theorems": [
    "Bac.Props.C76_exact",
    "Bac.Props.C76_fails",
    "Bac.Props.C76_partial"
   ],
   "note": "type octet and length field are not looked at; functions and cut headers proved"
  },
  {
   "property": "C77",
   "status": "partial",
   "theorems": [
    "Bac.Props.C77_fails"
   ],
   "note": "false for every segment"
  },
  {
   "property": "C78",
   "status": "partial",
   "theorems": [
    "Bac.Props.C78_read_partial",
    "Bac.Props.C78_readMulti_partial",
    "Bac.Props.C78_read_exact",
    "Bac.Props.C78_readMulti_verdict",
    "Bac.Props.C78_readMulti_exact"
   ],
   "note": "for values of the kinds of C71 and one-octet hardware addresses; C78_read_exact, C78_readMulti_verdict and C78_readMulti_exact say what becomes of all conforming answers without constructed values"
  },
  {
   "property": "C79",
   "status": "partial",
   "theorems": [
    "Bac.Props.C79_write_partial",
    "Bac.Props.C79_exact"
   ],
   "note": "WriteProperty; for the value kinds of C29; C79_exact: the standard's request is sent exactly for these"
  },
  {
   "property": "C80",
   "status": "partial",
   "theorems": [
    "Bac.Props.C80_exact",
    "Bac.Props.C80_fails_read",
    "Bac.Props.C80_fails_write",
    "Bac.Props.C80_silent_partial"
   ],
   "note": "false for reads and writes: a bare request header is transmitted; with a silent network an invalid read ends in an error"
  },
  {
   "property": "C81",
   "status": "partial",
   "theorems": [
    "Bac.Props.C81_fails_hang",
    "Bac.Props.C81_fails_panic",
    "Bac.Props.C81_ends_partial"
   ],
   "note": "a truncated ReadPropertyMultiple answer hangs the call, single-property calls without a property in the request panic; proved for all answers on which the decoders end"
  },
  {
   "property": "C82",
   "status": "partial",
   "theorems": [
    "Bac.Props.C82_sent_partial",
    "Bac.Props.C82_fails",
    "Bac.Props.C43_exact"
   ],
   "note": "the check counts the network header too, so requests of the last octets are refused; C43_exact is the equivalence"
  },
  {
   "property": "C83",
   "status": "partial",
   "theorems": [
    "Bac.Props.C83_exact",
    "Bac.Props.C83_fails",
    "Bac.Props.C83_count_partial"
   ],
   "note": "every context-tagged component adds a spurious unfinished object; exact result proved, one entry per object without components"
  },
  {
   "property": "C84",
   "status": "partial",
   "theorems": [
    "Bac.Props.C84_typed_partial",
    "Bac.Props.C84_skipped",
    "Bac.Props.C84_fails_bool",
    "Bac.Props.C84_fails_shed"
   ],
   "note": "Booleans are always true and leave their octet behind, actual and requested shed levels are misread; everything else in the table proved"
  },
  {
   "property": "C85",
   "status": "partial",
   "theorems": [
    "Bac.Props.C85_dateTimes_partial",
    "Bac.Props.C85_fails"
   ],
   "note": "year is 90 too late as in C14; everything else proved"
  },
  {
   "property": "C86",
   "status": "partial",
   "theorems": [
    "Bac.Props.C86_fails",
    "Bac.Props.C86_fails_brackets"
   ],
   "note": "false"
  },
  {
   "property": "C87",
   "status": "partial",
   "theorems": [
    "Bac.Props.C87_fails",
    "Bac.Props.C87_fails_crash",
    "Bac.Props.C87_two_partial",
    "Bac.Props.C87_exact"
   ],
   "note": "false for any number of networks but two; four networks can crash the process; two proved"
  },
  {
   "property": "C88",
   "status": "proved",
   "theorems": [
    "Bac.Props.C88_numbers"
   ],
   "note": ""
  },
  {
   "property": "C89",
   "status": "partial",
   "theorems": [
    "Bac.Props.C89_covers_partial",
    "Bac.Props.C89_request",
    "Bac.Props.C89_fails",
    "Bac.Props.C89_exact"
   ],
   "note": "limits of 2^32 and more are truncated; all others proved; C89_exact is the equivalence"
  },
  {
   "property": "C90",
   "status": "proved",
   "theorems": [
    "Bac.Props.C90_discovery"
   ],
   "note": "for limits of at least 1; other limits are the subject of C54"
  },
  {
   "property": "C91",
   "status": "partial",
   "theorems": [
    "Bac.Props.C91_returns_partial",
    "Bac.Props.C91_fails_missing",
    "Bac.Props.C91_fails_extra",
    "Bac.Props.C55_fails",
    "Bac.Props.C91_exact"
   ],
   "note": "C91_exact: exactly which answers crash; false: answers without a description, with an additional object, or limits below 20 crash; proved for all other answers"
  },
  {
   "property": "C92",
   "status": "partial",
   "theorems": [
    "Bac.Props.C92_scan_fits",
    "Bac.Props.C92_info_fits_partial",
    "Bac.Props.C92_fails",
    "Bac.Props.C92_exact"
   ],
   "note": "the object list requests always fit; the questions about five objects exceed the limit of 50; C92_exact: the question about k objects is sent exactly from a limit of 6 + 11 k octets on (10 + address + 11 k behind a router)"
  },
  {
   "property": "C93",
   "status": "partial",
   "theorems": [
    "Bac.Props.C93_objects_partial",
    "Bac.Props.C93_answered",
    "Bac.Props.C93_exact"
   ],
   "note": "for limits of at least 61 (71 behind a router), standard object types and hardware addresses of one octet; C93_exact: works exactly from a limit of 6 + 11 min(5, n) octets on for n different objects (11 + 11 min(5, n) behind a router), and is refused below"
  },
  {
   "property": "C94",
   "status": "partial",
   "theorems": [
    "Bac.Props.C94_fails",
    "Bac.Props.C94_exact",
    "Bac.Props.C78_readMulti_partial"
   ],
   "note": "false: any access error makes the whole call fail; answers without access errors are returned completely"
  },
  {
   "property": "C95",
   "status": "partial",
   "theorems": [
    "Bac.Props.C95_fails",
    "Bac.Props.C95_partial",
    "Bac.Props.C95_exact"
   ],
   "note": "C95_exact: exactly what fits in the buffers is received whole; false: the read buffers have the size of the APDU and leave no room for the headers; datagrams that fit in the buffer are received whole"
  },
  {
   "property": "C96",
   "status": "partial",
   "theorems": [
    "Bac.Props.C96_fails",
    "Bac.Props.C96_partial",
    "Bac.Props.C97_exact"
   ],
   "note": "false: the loop ends with the first error; without errors everything is handed over"
  },
  {
   "property": "C97",
   "status": "partial",
   "theorems": [
    "Bac.Props.C97_fails",
    "Bac.Props.C97_partial",
    "Bac.Props.C97_exact"
   ],
   "note": "false for IPv6 senders; proved for IPv4 senders"
  },
  {
   "property": "C98",
   "status": "partial",
   "theorems": [
    "Bac.Props.C98_fails",
    "Bac.Props.C98_partial",
    "Bac.Props.C98_exact"
   ],
   "note": "false for every port but 47808"
  },
  {
   "property": "C99",
   "status": "proved",
   "theorems": [
    "Bac.Props.C99_interface",
    "Bac.Props.C99_no_address"
   ],
   "note": ""
  },
  {
   "property": "C100",
   "status": "proved",
   "theorems": [
    "Bac.Props.C100_texts",
    "Bac.Props.C100_unique"
   ],
   "note": ""
  },
  {
   "property": "C101",
   "status": "partial",
   "theorems": [
    "Bac.Props.C101_partial",
    "Bac.Props.C101_nearest_partial",
    "Bac.Props.C101_fails",
    "Bac.Props.C101_exact"
   ],
   "note": "C101_exact: exactly the numbers of up to 24 bits followed by zeros are reported as sent; false above 2^24; nearest float proved"
  },
  {
   "property": "C102",
   "status": "partial",
   "theorems": [
    "Bac.Props.C102_exact",
    "Bac.Props.C102_fails",
    "Bac.Props.C102_partial",
    "Bac.Props.C102_fails_long"
   ],
   "note": "false for DeviceDiscover and for long MACs; proved for NetworkDiscover"
  },
  {
   "property": "C103",
   "status": "partial",
   "theorems": [
    "Bac.Props.C103_exact",
    "Bac.Props.C103_partial",
    "Bac.Props.C103_fails",
    "Bac.Props.C103_fails_nil"
   ],
   "note": "false for other types than REAL"
  },
  {
   "property": "C104",
   "status": "partial",
   "theorems": [
    "Bac.Props.C104_exact",
    "Bac.Props.C104_partial",
    "Bac.Props.C104_fails"
   ],
   "note": "false for other types than unsigned and enumerated"
  },
  {
   "property": "C105",
   "status": "partial",
   "theorems": [
    "Bac.Props.C105_exact",
    "Bac.Props.C105_exact_analogue",
    "Bac.Props.C105_analogue_partial",
    "Bac.Props.C105_fails_binary",
    "Bac.Props.C105_number_partial",
    "Bac.Props.C105_fails_input"
   ],
   "note": "false: crash on binary points, unsigned for binary inputs"
  },
  {
   "property": "C106",
   "status": "partial",
   "theorems": [
    "Bac.Props.C106_fails",
    "Bac.Props.C106_kinds_partial"
   ],
   "note": "false: always true"
  },
  {
   "property": "C107",
   "status": "partial",
   "theorems": [
    "Bac.Props.C107_exact",
    "Bac.Props.C107_fails",
    "Bac.Props.C107_partial"
   ],
   "note": "false for the details"
  },
  {
   "property": "C108",
   "status": "partial",
   "theorems": [
    "Bac.Props.C108_exact",
    "Bac.Props.C108_partial",
    "Bac.Props.C108_fails"
   ],
   "note": "false for numbers of more than 16 bits"
  },
  {
   "property": "C109",
   "status": "partial",
   "theorems": [
    "Bac.Props.C109_partial",
    "Bac.Props.C109_fails",
    "Bac.Props.C109_answers_partial"
   ],
   "note": "false: overwritten with 0 when the reads fail"
  },
  {
   "property": "C110",
   "status": "partial",
   "theorems": [
    "Bac.Props.C110_exact",
    "Bac.Props.C110_partial",
    "Bac.Props.C110_fails"
   ],
   "note": "false for answers of other types; exact for character strings"
  },
  {
   "property": "C111",
   "status": "partial",
   "theorems": [
    "Bac.Props.C111_exact_device",
    "Bac.Props.C111_exact_network",
    "Bac.Props.C111_device_partial",
    "Bac.Props.C111_network_partial",
    "Bac.Props.C111_fails_kind",
    "Bac.Props.C111_fails_network",
    "Bac.Props.C111_fails_nil"
   ],
   "note": "false: crashes for the wrong kind and for stored networks"
  },
  {
   "property": "C112",
   "status": "proved",
   "theorems": [
    "Bac.Props.C112_points",
    "Bac.Props.C112_error"
   ],
   "note": ""
  },
  {
   "property": "C113",
   "status": "partial",
   "theorems": [
    "Bac.Props.C113_fails",
    "Bac.Props.C113_fields_partial"
   ],
   "note": "false: the device used for requests keeps its limits"
  },
  {
   "property": "C114",
   "status": "partial",
   "theorems": [
    "Bac.Props.C114_found_partial",
    "Bac.Props.C114_sound",
    "Bac.Props.C114_answers_partial",
    "Bac.Props.C114_fails"
   ],
   "note": "false: an answer published just before the time is up is left out; exact otherwise"
  },
  {
   "property": "C115",
   "status": "partial",
   "theorems": [
    "Bac.Props.C115_fails",
    "Bac.Props.C115_single_partial"
   ],
   "note": "false: two answers can block discovery for ever"
  },
  {
   "property": "C116",
   "status": "proved",
   "theorems": [
    "Bac.Props.C116_refines",
    "Bac.Props.C116_prefix"
   ],
   "note": ""
  },
  {
   "property": "C117",
   "status": "partial",
   "theorems": [
    "Bac.Props.C117_read_partial",
    "Bac.Props.C117_readMulti_partial",
    "Bac.Props.C117_write_partial",
    "Bac.Props.C117_fails_source",
    "Bac.Props.C117_fails_stale"
   ],
   "note": "false: source, order and property are not checked, a reused object can carry another id; proved: the octets are the end of a datagram that arrived"
  },
  {
   "property": "C118",
   "status": "proved",
   "theorems": [
    "Bac.Props.C118_distinct",
    "Bac.Props.C118_wire",
    "Bac.Props.C118_wire_distinct"
   ],
   "note": ""
  },
  {
   "property": "C119",
   "status": "proved",
   "theorems": [
    "Bac.Props.C119_ends"
   ],
   "note": ""
  },
  {
   "property": "C120",
   "status": "partial",
   "theorems": [
    "Bac.Props.C120_saved_partial",
    "Bac.Props.C120_read",
    "Bac.Props.C120_merged",
    "Bac.Props.C120_fails"
   ],
   "note": "false: the results are saved while up to concurrency + 1 devices wait to be merged; everything else proved"
  },
  {
   "property": "C121",
   "status": "partial",
   "theorems": [
    "Bac.Props.C121_exact",
    "Bac.Props.C121_safe",
    "Bac.Props.C121_decreases",
    "Bac.Props.C121_finite",
    "Bac.Props.C121_ends",
    "Bac.Props.C121_fails_zero"
   ],
   "note": "false for 0 workers (never ends); proved for every other number"
  },
  {
   "property": "C122",
   "status": "partial",
   "theorems": [
    "Bac.Props.C122_exact",
    "Bac.Props.C122_covers",
    "Bac.Props.C122_fails_blocks",
    "Bac.Props.C122_fails_size"
   ],
   "note": "false: the first call asks for all devices, every other call for a single one; scan sizes 0 (crash) and above 4194303 (nothing asked)"
  },
  {
   "property": "C123",
   "status": "partial",
   "theorems": [
    "Bac.Props.C123_exact_number",
    "Bac.Props.C123_partial",
    "Bac.Props.C123_null_partial",
    "Bac.Props.C123_stops",
    "Bac.Props.C123_other_partial",
    "Bac.Props.C123_number_partial",
    "Bac.Props.C123_dest_partial",
    "Bac.Props.C123_fails_name",
    "Bac.Props.C123_fails_value",
    "Bac.Props.C123_fails_enum",
    "Bac.Props.C123_fails_number",
    "Bac.Props.C123_fails_priority",
    "Bac.Props.C123_fails_crash"
   ],
   "note": "false for unknown names, texts that are no number, enumerated properties, priorities above 255, large numbers; crash on an answer that is no number; proved for the rest (double: C06)"
  },
  {
   "property": "C124",
   "status": "partial",
   "theorems": [
    "Bac.Props.C124_exact",
    "Bac.Props.C124_sound",
    "Bac.Props.C124_partial",
    "Bac.Props.C124_fails",
    "Bac.Props.C124_fails_leak",
    "Bac.Props.C124_clean",
    "Bac.Props.C124_fails_silent",
    "Bac.Props.C124_returns"
   ],
   "note": "false: the goroutines share err and the result of Subscribe can overwrite the error; two calls never report it; proved for WhoIs in the other orders"
  },
  {
   "property": "C125",
   "status": "partial",
   "theorems": [
    "Bac.Props.C125_window",
    "Bac.Props.C125_devices",
    "Bac.Props.C125_partial",
    "Bac.Props.C125_fails",
    "Bac.Props.C125_fails_last"
   ],
   "note": "false: the request may be sent before the subscription is entered, and the last message may stay in the channel; proved for the rest"
  },
  {
   "property": "C126",
   "status": "partial",
   "theorems": [
    "Bac.Props.C126_exact",
    "Bac.Props.C126_whoIs_partial",
    "Bac.Props.C126_network",
    "Bac.Props.C126_fails"
   ],
   "note": "false for a Who-Is on the local network; proved for the other requests"
  },
  {
   "property": "C127",
   "status": "partial",
   "theorems": [
    "Bac.Props.C127_partial",
    "Bac.Props.C127_fails_length",
    "Bac.Props.C127_fails_id"
   ],
   "note": "false when the length of the address is not set and for identifiers out of range; proved for the rest"
  },
  {
   "property": "C128",
   "status": "proved",
   "theorems": [
    "Bac.Props.C128_kept",
    "Bac.Props.C128_received"
   ],
   "note": ""
  },
  {
   "property": "C129",
   "status": "partial",
   "theorems": [
    "Bac.Props.C129_exact",
    "Bac.Props.C129_partial",
    "Bac.Props.C129_bounded",
    "Bac.Props.C129_fails",
    "Bac.Props.C129_fails_handled",
    "Bac.Props.C129_fails_stderr"
   ],
   "note": "false for ClientClose(true), which closes os.Stderr and leaves the client open; proved for Close and ClientClose(false)"
  },
  {
   "property": "C130",
   "status": "partial",
   "theorems": [
    "Bac.Props.C130_once",
    "Bac.Props.C130_hears",
    "Bac.Props.C130_fails"
   ],
   "note": "false: every Whois and NetworkDiscover of package network adds a receive loop; each datagram is handed over once, in order"
  },
  {
   "property": "C131",
   "status": "partial",
   "theorems": [
    "Bac.Props.C131_partial",
    "Bac.Props.C131_fails",
    "Bac.Props.C131_fails_run"
   ],
   "note": "false for write and multi, which crash; proved for read and whois"
  },
  {
   "property": "C132",
   "status": "partial",
   "theorems": [
    "Bac.Props.C132_fails",
    "Bac.Props.C132_fails_named"
   ],
   "note": "false: both commands crash whenever the interface opens"
  },
  {
   "property": "C133",
   "status": "partial",
   "theorems": [
    "Bac.Props.C133_partial",
    "Bac.Props.C133_fails",
    "Bac.Props.C133_fails_limit"
   ],
   "note": "false when the object list is not answered or the limit is not a positive number; proved for the rest"
  },
  {
   "property": "C134",
   "status": "partial",
   "theorems": [
    "Bac.Props.C134_given",
    "Bac.Props.C134_partial",
    "Bac.Props.C134_fails",
    "Bac.Props.C134_runs",
    "Bac.Props.C134_exact"
   ],
   "note": "false for --device and --objectID of read, whose variables hold the defaults of write; proved for all other flags"
  },
  {
   "property": "C135",
   "status": "proved",
   "theorems": [
    "Bac.Props.C135_decided",
    "Bac.Props.C135_verdict",
    "Bac.Props.C135_call",
    "Bac.Props.C135_read",
    "Bac.Props.C135_hang"
   ],
   "note": ""
  },
  {
   "property": "C136",
   "status": "partial",
   "theorems": [
    "Bac.Props.C136_kept",
    "Bac.Props.C136_blocked",
    "Bac.Props.C136_fails",
    "Bac.Props.C136_partial"
   ],
   "note": "false: a call that hangs in the decoder (C34, C135) keeps its slot and id for ever, and as many answers of one device as there are slots (20) stop all further calls to all devices; holds exactly as long as fewer calls hang"
  },
  {
   "property": "C137",
   "status": "partial",
   "theorems": [
    "Bac.Props.C137_refines",
    "Bac.Props.C137_early",
    "Bac.Props.C137_least",
    "Bac.Props.C137_partial",
    "Bac.Props.C137_overrun",
    "Bac.Props.C137_silence",
    "Bac.Props.C137_fails",
    "Bac.Props.C137_fails_late",
    "Bac.Props.C137_overrun_fails",
    "Bac.Props.C137_idle"
   ],
   "note": "false: a message that arrives at the very instant of the deadline is lost, with a slow scheduler also earlier ones, and a call caught between two publications (C52) never ends. Proved: no call ends early; when nothing is slow, at most the last message is lost, and only if it was put into the channel no earlier than the call gave up, and a call outlives its timeout only in the deadlock of C52"
  },
  {
   "property": "C138",
   "status": "partial",
   "theorems": [
    "Bac.Props.C138_refines",
    "Bac.Props.C138_partial",
    "Bac.Props.C138_least",
    "Bac.Props.C138_silent",
    "Bac.Props.C138_fails",
    "Bac.Props.C138_live"
   ],
   "note": "false: a ReadMultiProperty call whose answer makes the decoder hang (C34, C135) never returns. Proved: no other call takes longer than 6 s (ReadProperty), 11 s (writes), 20 s (ReadMultiProperty) when nothing is slow, and in every execution a call has taken 5 s for each time-out"
  },
  {
   "property": "C139",
   "status": "partial",
   "theorems": [
    "Bac.Props.C139_ports",
    "Bac.Props.C139_exact",
    "Bac.Props.C139_partial",
    "Bac.Props.C139_fails",
    "Bac.Props.C139_fails_key",
    "Bac.Props.C139_fails_again",
    "Bac.Props.C139_fails_panic"
   ],
   "note": "false: NewNetwork of a store without handler reports an error with the socket open and nothing that could close it; so do NewNetwork under a key in use, a second New of the same value, and a crash of NewClient. Proved: an open client can be closed exactly if the program or the store has a network with it, closing frees the port, and ports are unique"
  },
  {
   "property": "C140",
   "status": "partial",
   "theorems": [
    "Bac.Props.C140_exact",
    "Bac.Props.C140_fails",
    "Bac.Props.C140_partial"
   ],
   "note": "false: the socket is bound to all interfaces, so the same port cannot be used on two; proved that only the port matters"
  },
  {
   "property": "C141",
   "status": "partial",
   "theorems": [
    "Bac.Props.C141_partial",
    "Bac.Props.C141_fails"
   ],
   "note": "false for odd and even days: the last day is taken for all odd days, odd days for even ones, even days for nothing; proved for odd and even months and the last day"
  },
  {
   "property": "C142",
   "status": "partial",
   "theorems": [
    "Bac.Props.C142_partial",
    "Bac.Props.C142_fails"
   ],
   "note": "false at the deadline itself: the answer may be dropped for the time-out, and sending it then panics on the channel that Put has closed; proved for every answer offered before the deadline"
  },
  {
   "property": "C143",
   "status": "partial",
   "theorems": [
    "Bac.Props.C143_writes",
    "Bac.Props.C143_exact",
    "Bac.Props.C143_partial",
    "Bac.Props.C143_fails"
   ],
   "note": "false: Send reads the channel of an object outside the mutex while ID, having got the same object from the pool, writes it. Proved: this is the only race, and it needs an answer whose call is over"
  },
  {
   "property": "C144",
   "status": "partial",
   "theorems": [
    "Bac.Props.C144_home",
    "Bac.Props.C144_partial",
    "Bac.Props.C144_fails",
    "Bac.Props.C144_error",
    "Bac.Props.C144_exact"
   ],
   "note": "false: without getent the shell is not asked, because the wrapped error is compared with exec.ErrNotFound, and an empty entry is returned without error; proved for HOME and for the password file, and exactly when there is an error"
  },
  {
   "property": "C145",
   "status": "partial",
   "theorems": [
    "Bac.Props.C145_exact",
    "Bac.Props.C145_partial",
    "Bac.Props.C145_fails"
   ],
   "note": "false: a cached directory is returned after HOME has changed; proved that the value is of a time after every Reset before the call, and of the time of the call if it is an error or the cache is not used"
  },
  {
   "property": "C146",
   "status": "partial",
   "theorems": [
    "Bac.Props.C146_partial",
    "Bac.Props.C146_other",
    "Bac.Props.C146_fails",
    "Bac.Props.C146_clean",
    "Bac.Props.C146_stays",
    "Bac.Props.C146_fails_up"
   ],
   "note": "false when the home directory is reported as empty (C144) and for paths that go up; proved for every path that never leaves the home directory, and that shortening keeps the meaning of any path"
  },
  {
   "property": "C147",
   "status": "partial",
   "theorems": [
    "Bac.Props.C147_fails",
    "Bac.Props.C147_partial",
    "Bac.Props.C147_runs"
   ],
   "note": "false: the settings are read but never looked at; proved that a flag given prevails, and when a command runs at all"
  },
  {
   "property": "C148",
   "status": "partial",
   "theorems": [
    "Bac.Props.C148_exact",
    "Bac.Props.C148_partial",
    "Bac.Props.C148_fails"
   ],
   "note": "false: the function for integers asserts the type int, which the decoder never produces; proved exactly for which values each function gives something"
  },
  {
   "property": "C149",
   "status": "partial",
   "theorems": [
    "Bac.Props.C149_exact",
    "Bac.Props.C149_partial",
    "Bac.Props.C149_fails",
    "Bac.Props.C149_fails_v6"
   ],
   "note": "false: a text with /32 or /128 and IPv6 text are accepted but give 0.0.0.0; proved exactly what is accepted, and the octets for dotted text"
  },
  {
   "property": "C150",
   "status": "proved",
   "theorems": [
    "Bac.Props.C150_read",
    "Bac.Props.C150_roundtrip",
    "Bac.Props.C150_found"
   ],
   "note": ""
  },
  {
   "property": "C151",
   "status": "proved",
   "theorems": [
    "Bac.Props.C151_refines",
    "Bac.Props.C151_opened",
    "Bac.Props.C151_valid"
   ],
   "note": "reading of IPv6 text is a parameter with two assumptions (a colon comes before any dot, no slash)"
  },
  {
   "property": "C152",
   "status": "proved",
   "theorems": [
    "Bac.Props.C152"
   ],
   "note": ""
  },
  {
   "property": "C153",
   "status": "partial",
   "theorems": [
    "Bac.Props.C153_partial",
    "Bac.Props.C153_fails"
   ],
   "note": "false: properties without a name all print as Unknown; proved exactly when two printed answers agree"
  },
  {
   "property": "C154",
   "status": "partial",
   "theorems": [
    "Bac.Props.C154_exact",
    "Bac.Props.C154_partial",
    "Bac.Props.C154_fails"
   ],
   "note": "false: ToBitString and ToArr index the properties of a failed read; proved exactly when they crash, and never for an answer"
  },
  {
   "property": "C155",
   "status": "proved",
   "theorems": [
    "Bac.Props.C155_no_race",
    "Bac.Props.C155_locks",
    "Bac.Props.C155_writes"
   ],
   "note": ""
  },
  {
   "property": "C156",
   "status": "partial",
   "theorems": [
    "Bac.Props.C156_partial",
    "Bac.Props.C156_exact",
    "Bac.Props.C156_fails"
   ],
   "note": "false: nothing makes the main goroutine wait for the merging one; proved exactly when they can race, and that what is saved is complete if the merging goroutine was through"
  },
  {
   "property": "C157",
   "status": "partial",
   "theorems": [
    "Bac.Props.C157_exact",
    "Bac.Props.C157_text",
    "Bac.Props.C157_received",
    "Bac.Props.C157_fails"
   ],
   "note": "false: making the text of a bit string of no octet with unused bits crashes; proved for all others"
  },
  {
   "property": "C158",
   "status": "partial",
   "theorems": [
    "Bac.Props.C158_flags_exact",
    "Bac.Props.C158_flags_partial",
    "Bac.Props.C158_priority_exact",
    "Bac.Props.C158_fails_priority",
    "Bac.Props.C158_fails_flag",
    "Bac.Props.C158_pdu_flags",
    "Bac.Props.C158_type_exact",
    "Bac.Props.C158_pdu_partial",
    "Bac.Props.C158_fails_lost",
    "Bac.Props.C158_encoders"
   ],
   "note": "false: a second priority or type is mixed with the first, setting the type clears the flags. Proved: exactly what is read after any history, and that the use by the two encoders is right"
  },
  {
   "property": "C159",
   "status": "partial",
   "theorems": [
    "Bac.Props.C159_exact",
    "Bac.Props.C159_partial",
    "Bac.Props.C159_fails"
   ],
   "note": "false: a station address makes the frame unicast, the global network and an empty hardware address stay broadcast. Proved: exactly what every address is taken for after each declaration"
  },
  {
   "property": "C160",
   "status": "partial",
   "theorems": [
    "Bac.Props.C160_bytes",
    "Bac.Props.C160_exact",
    "Bac.Props.C160_partial",
    "Bac.Props.C160_fails",
    "Bac.Props.C160_fails_long"
   ],
   "note": "false: asking for an octet beyond those received but below the fifteenth crashes, and of more than fifteen octets none counts. Proved: the octets and their number for up to fifteen, exactly when it crashes, and BytesUsed for every bit string"
  }
 ]
}