{
 "claims": [
  {
   "property": "C01",
   "status": "proved",
   "theorems": [
    "Knx.c01_render_parse",
    "Knx.c01_lower_parse",
    "Knx.c01_parse_render"
   ],
   "note": "Characters are unicode scalar values."
  },
  {
   "property": "C02",
   "status": "partial",
   "theorems": [
    "Knx.c02_error_iff",
    "Knx.c02_octets",
    "Knx.c02_refuted",
    "Knx.c02_ascii_partial"
   ],
   "note": "Proved for ASCII text. False of every decimal digit of another script, which int(c, 16) accepts as well (c02_refuted); c02_error_iff and c02_octets say for all strings what is accepted and what it becomes."
  },
  {
   "property": "C03",
   "status": "proved",
   "theorems": [
    "Knx.c03_octect",
    "Knx.c03_short",
    "Knx.c03_long",
    "Knx.c03_short_restore",
    "Knx.c03_long_restore",
    "Knx.c03_short_emit",
    "Knx.c03_long_emit",
    "Knx.c03_errors"
   ],
   "note": ""
  },
  {
   "property": "C04",
   "status": "proved",
   "theorems": [
    "Knx.c04_build",
    "Knx.c04_read",
    "Knx.c04_three",
    "Knx.c04_two",
    "Knx.c04_rebuild",
    "Knx.c04_eq"
   ],
   "note": ""
  },
  {
   "property": "C05",
   "status": "proved",
   "theorems": [
    "Knx.c05_sorted",
    "Knx.c05_resolve",
    "Knx.c05_faithful",
    "Knx.c05_getAddress",
    "Knx.c05_content"
   ],
   "note": ""
  },
  {
   "property": "C06",
   "status": "partial",
   "theorems": [
    "Knx.c06_capacity",
    "Knx.c06_add_full_partial",
    "Knx.c06_refuted",
    "Knx.c06_ignored_refuted",
    "Knx.c06_add_room",
    "Knx.c06_assoc_capacity"
   ],
   "note": "The growth bound is proved in full. Second clause: an add at capacity of an address that is in the table and equals the individual address is ignored silently instead of raising (c06_refuted); every other add at capacity raises (c06_add_full_partial)."
  },
  {
   "property": "C07",
   "status": "partial",
   "theorems": [
    "Knx.c07_assoc_partial",
    "Knx.c07_add_partial",
    "Knx.c07_add_duplicates"
   ],
   "note": "Holds for histories of associate/disassociate; refuted for direct AddressTable.add (c07_add_duplicates)."
  },
  {
   "property": "C08",
   "status": "partial",
   "theorems": [
    "Knx.c08_partial",
    "Knx.c08_exclusive_partial",
    "Knx.c08_shared_refuted",
    "Knx.c08_exact",
    "Knx.c08_pooled_refuted"
   ],
   "note": "False after disassociating an address shared by two ASAPs (c08_shared_refuted, for all such tables c08_pooled_refuted); proved for all addresses otherwise, and for all still known addresses always. c08_exact says for every address what is listed, after any history whose last call succeeded."
  },
  {
   "property": "C09",
   "status": "partial",
   "theorems": [
    "Knx.c09_associate_partial",
    "Knx.c09_history_partial",
    "Knx.c09_reachable",
    "Knx.c09_refuted",
    "Knx.c09_shared_refuted"
   ],
   "note": "Proved for tables reached by successful calls that disassociate no shared group address (c09_reachable); false for every table with an associated address that became unknown (c09_refuted, c09_shared_refuted)."
  },
  {
   "property": "C10",
   "status": "partial",
   "theorems": [
    "Knx.c10_partial",
    "Knx.c10_history_partial",
    "Knx.c10_refuted",
    "Knx.c10_shared_refuted"
   ],
   "note": "False for every table with a shared group address (c10_refuted, c10_shared_refuted)."
  },
  {
   "property": "C11",
   "status": "partial",
   "theorems": [
    "Knx.c11_partial",
    "Knx.c11_full_partial",
    "Knx.c11_refuted",
    "Knx.c11_shift_refuted"
   ],
   "note": "False: the addresses that fitted stay and shift the TSAP numbers (c11_refuted), in every table in which a smaller address was added (c11_shift_refuted)."
  },
  {
   "property": "C12",
   "status": "partial",
   "theorems": [
    "Knx.c12_partial",
    "Knx.c12_ascending_partial",
    "Knx.c12_refuted"
   ],
   "note": "False for registration orders such as 0, 2, 1 (c12_refuted); exact condition in c12_partial."
  },
  {
   "property": "C13",
   "status": "proved",
   "theorems": [
    "Knx.c13_tsap"
   ],
   "note": ""
  },
  {
   "property": "C14",
   "status": "proved",
   "theorems": [
    "Knx.c14_map",
    "Knx.c14_disassociate"
   ],
   "note": ""
  },
  {
   "property": "C15",
   "status": "proved",
   "theorems": [
    "Knx.c15_layout",
    "Knx.c15_bits",
    "Knx.c15_props",
    "Knx.c15_number",
    "Knx.c15_width"
   ],
   "note": ""
  },
  {
   "property": "C16",
   "status": "proved",
   "theorems": [
    "Knx.c16_write",
    "Knx.c16_unknown",
    "Knx.c16_read",
    "Knx.c16_undefined"
   ],
   "note": ""
  },
  {
   "property": "C17",
   "status": "partial",
   "theorems": [
    "Knx.c17_rebuild_partial",
    "Knx.c17_refuted",
    "Knx.c17_name"
   ],
   "note": "False only for the 2-octet float 0xF800, which describes to a number that cannot be encoded (c17_refuted)."
  },
  {
   "property": "C18",
   "status": "proved",
   "theorems": [
    "Knx.c18_decode",
    "Knx.c18_absent"
   ],
   "note": "c18_absent: the types that are not numbers have no decode."
  },
  {
   "property": "C19",
   "status": "proved",
   "theorems": [
    "Knx.c19_stable",
    "Knx.c19_exception"
   ],
   "note": ""
  },
  {
   "property": "C20",
   "status": "partial",
   "theorems": [
    "Knx.c20_partial",
    "Knx.c20_refuted",
    "Knx.c20_negzero_refuted"
   ],
   "note": "False for negative numbers above -0.01 and for -0.0, which decode to -20.48. The mantissa is first rounded to hundredths, so the result can exceed the number by up to 0.000051."
  },
  {
   "property": "C21",
   "status": "proved",
   "theorems": [
    "Knx.c21_accepts",
    "Knx.c21_rejects",
    "Knx.c21_exact",
    "Knx.c21_untouched"
   ],
   "note": ""
  },
  {
   "property": "C22",
   "status": "proved",
   "theorems": [
    "Knx.c22_roundtrip",
    "Knx.c22_nearest",
    "Knx.c22_error",
    "Knx.c22_overflow",
    "Knx.c22_special"
   ],
   "note": "Also for infinities, and c22_overflow says which numbers become one; NaNs are stored as the quiet NaN 0x7FC00000."
  },
  {
   "property": "C23",
   "status": "partial",
   "theorems": [
    "Knx.c23_partial",
    "Knx.c23_history",
    "Knx.c23_refuted",
    "Knx.c23_exact"
   ],
   "note": "False if the ASAP's first address is 0 or the own individual address (c23_refuted: nothing is delivered) or if the first datapoint delivered cannot be displayed (c31_refuted). c23_history shows which tables meet the hypotheses. c23_exact says for every address of the ASAP what decoding its own confirmation gives."
  },
  {
   "property": "C24",
   "status": "partial",
   "theorems": [
    "Knx.c24_partial",
    "Knx.c24_refuted",
    "Knx.c24_exact"
   ],
   "note": "As C23. c24_exact as c23_exact."
  },
  {
   "property": "C25",
   "status": "partial",
   "theorems": [
    "Knx.c25_partial",
    "Knx.c25_refuted",
    "Knx.c25_exact"
   ],
   "note": "As C23, without the display condition. c25_exact as c23_exact."
  },
  {
   "property": "C26",
   "status": "partial",
   "theorems": [
    "Knx.c26_write_partial",
    "Knx.c26_read_partial",
    "Knx.c26_succeeds",
    "Knx.c26_history",
    "Knx.c26_refuted",
    "Knx.c26_lost_refuted",
    "Knx.c26_entered"
   ],
   "note": "False if the own individual address is also in the group address table, which happens when it is associated by value (c26_refuted); c26_history shows it does not happen otherwise. c26_lost_refuted: in that case no confirmation of a property request is delivered, whatever else is in the tables; c26_entered: associating the own individual address puts it into that table."
  },
  {
   "property": "C27",
   "status": "partial",
   "theorems": [
    "Knx.c27_partial",
    "Knx.c27_long_refuted",
    "Knx.c27_refuted"
   ],
   "note": "False for property data beyond 232 octets on USB or 250 octets otherwise (every such frame, c27_long_refuted) and for ASAPs without addresses (c27_refuted). The payload length counts the octets after the transport control octet."
  },
  {
   "property": "C28",
   "status": "partial",
   "theorems": [
    "Knx.c28_write_partial",
    "Knx.c28_write_succeeds",
    "Knx.c28_read_partial",
    "Knx.c28_read_succeeds",
    "Knx.c28_indication_partial",
    "Knx.c28_refuted",
    "Knx.c28_read_refuted",
    "Knx.c28_misdirected_refuted"
   ],
   "note": "False for an ASAP registered without addresses: the frame has no destination and no length (c28_refuted). For every such ASAP: what is encoded for a read is the frame of no telegram at all (c28_read_refuted), and a write of four octets is the frame of a telegram to a group address made of the service code and the first octet of the value (c28_misdirected_refuted)."
  },
  {
   "property": "C29",
   "status": "partial",
   "theorems": [
    "Knx.c29_fanout_partial",
    "Knx.c29_other",
    "Knx.c29_history_partial",
    "Knx.c29_refuted"
   ],
   "note": "False only if the first datapoint delivered cannot be displayed (undefined operating mode): then ValueError is raised and nothing is delivered (c29_refuted). Consistent = the routing of the destination is the one given by the associations (C08)."
  },
  {
   "property": "C30",
   "status": "proved",
   "theorems": [
    "Knx.c30_foreign"
   ],
   "note": ""
  },
  {
   "property": "C31",
   "status": "partial",
   "theorems": [
    "Knx.c31_exceptions",
    "Knx.c31_partial",
    "Knx.c31_refuted",
    "Knx.c31_unassociated"
   ],
   "note": "First clause proved. Second clause false: an undefined operating mode of a climate datapoint raises ValueError (c31_refuted); exact condition in c31_partial."
  },
  {
   "property": "C32",
   "status": "partial",
   "theorems": [
    "Knx.c32_usb_partial",
    "Knx.c32_ip_partial",
    "Knx.c32_none_refuted",
    "Knx.c32_tuple_refuted",
    "Knx.c32_numbered_refuted",
    "Knx.c32_ack_refuted"
   ],
   "note": "False for all group frames that are not plain group data (None on USB, c32_numbered_refuted) and for all tunnelling acks (a tuple, c32_ack_refuted); exact conditions proved."
  },
  {
   "property": "C33",
   "status": "proved",
   "theorems": [
    "Knx.c33_independent",
    "Knx.c33_sessions",
    "Knx.c33_tables"
   ],
   "note": ""
  },
  {
   "property": "C34",
   "status": "proved",
   "theorems": [
    "Knx.c34_padding",
    "Knx.c34_body"
   ],
   "note": ""
  },
  {
   "property": "C35",
   "status": "proved",
   "theorems": [
    "Knx.c35_info"
   ],
   "note": ""
  },
  {
   "property": "C36",
   "status": "proved",
   "theorems": [
    "Knx.c36_usb",
    "Knx.c36_usb_short",
    "Knx.c36_usb_prefix",
    "Knx.c36_ip"
   ],
   "note": ""
  },
  {
   "property": "C37",
   "status": "proved",
   "theorems": [
    "Knx.c37_determined",
    "Knx.c37_frame",
    "Knx.c37_repeatable",
    "Knx.c37_error"
   ],
   "note": ""
  },
  {
   "property": "C38",
   "status": "partial",
   "theorems": [
    "Knx.c38_kind_partial",
    "Knx.c38_set_partial",
    "Knx.c38_set_octet",
    "Knx.c38_connect_refuted",
    "Knx.c38_none_refuted"
   ],
   "note": "False: connect and disconnect frames are read as connected data (c38_connect_refuted), and some frames have no kind (c38_none_refuted)."
  },
  {
   "property": "C39",
   "status": "proved",
   "theorems": [
    "Knx.c39_octets"
   ],
   "note": "After every history of encode_msg, decode_msg and assignments, raising or not, from a new state."
  },
  {
   "property": "C40",
   "status": "proved",
   "theorems": [
    "Knx.c40_other",
    "Knx.c40_expected"
   ],
   "note": "What a request with the expected counter delivers is stated as what a USB interface delivers for the same frame."
  },
  {
   "property": "C41",
   "status": "proved",
   "theorems": [
    "Knx.c41_ack"
   ],
   "note": "The first acknowledgement carries the request's counter; repeated ones move nothing but carry the next counter (c42_refuted)."
  },
  {
   "property": "C42",
   "status": "partial",
   "theorems": [
    "Knx.c42_partial",
    "Knx.c42_refuted",
    "Knx.c42_wrap_refuted"
   ],
   "note": "Proved: no number of retransmissions delivers anything or changes the state. The acknowledgement clause is false: it carries the next counter, and counter 255 is reported as a sequence error."
  },
  {
   "property": "C43",
   "status": "proved",
   "theorems": [
    "Knx.c43_local",
    "Knx.c43_duplicates"
   ],
   "note": "Exact value of the counter after every history. An acknowledgement counts by its counter alone: its channel is not looked at, and one with an undefined status advances the counter before decode_msg raises."
  },
  {
   "property": "C44",
   "status": "proved",
   "theorems": [
    "Knx.c44_channel",
    "Knx.c44_requests",
    "Knx.c44_others",
    "Knx.c44_start"
   ],
   "note": "Exact value of the channel after every history; c44_requests also says that requests carry the counter of C43."
  },
  {
   "property": "C45",
   "status": "proved",
   "theorems": [
    "Knx.c45_connect",
    "Knx.c45_channel",
    "Knx.c45_search",
    "Knx.c45_response"
   ],
   "note": "Addresses are given as 32-bit numbers: socket.inet_aton and inet_ntoa are not modelled."
  },
  {
   "property": "C46",
   "status": "partial",
   "theorems": [
    "Knx.c46_partial",
    "Knx.c46_refuted",
    "Knx.c46_stuck_refuted"
   ],
   "note": "Proved for telegrams whose decoding succeeds, with any retransmissions, acknowledgements, writes, reconnect attempts and other datagrams in between. False of a telegram that decode_msg raises on: it is never acknowledged and the telegrams after it are rejected (c46_refuted). For every such telegram: as long as no other one comes with its counter, no telegram is decoded any more (c46_stuck_refuted)."
  },
  {
   "property": "C47",
   "status": "partial",
   "theorems": [
    "Knx.c47_partial",
    "Knx.c47_refuted",
    "Knx.c47_exact"
   ],
   "note": "False: a connect response with a refusing status also sets connected (c47_refuted). c47_exact: exactly the connect responses with all their parts set connected, whatever their status."
  },
  {
   "property": "C48",
   "status": "partial",
   "theorems": [
    "Knx.c48_partial",
    "Knx.c48_refuted",
    "Knx.c48_local_refuted"
   ],
   "note": "Proved for the counter of received requests; the counter of sent requests is not reset (c48_refuted). For every client that has sent a request: the first one of the new connection has not the counter 0 (c48_local_refuted)."
  },
  {
   "property": "C49",
   "status": "proved",
   "theorems": [
    "Knx.c49_hex",
    "Knx.c49_received",
    "Knx.c49_written",
    "Knx.c49_made",
    "Knx.c49_wire",
    "Knx.c49_sends"
   ],
   "note": ""
  },
  {
   "property": "C50",
   "status": "partial",
   "theorems": [
    "Knx.c50_partial",
    "Knx.c50_only",
    "Knx.c50_refuted",
    "Knx.c50_empty_refuted",
    "Knx.c50_long_refuted"
   ],
   "note": "Proved for well-formed lines of at most 56 octets read in one piece. False otherwise: a malformed, empty or longer line makes the daemon write the packet it has, e.g. the last report of the bus."
  },
  {
   "property": "C51",
   "status": "proved",
   "theorems": [
    "Knx.c51_broadcast",
    "Knx.c51_only",
    "Knx.c51_table",
    "Knx.c51_all"
   ],
   "note": "c51_all: with at most 64 simultaneous clients the table holds exactly the connected clients."
  },
  {
   "property": "C52",
   "status": "proved",
   "theorems": [
    "Knx.c52_features"
   ],
   "note": ""
  },
  {
   "property": "C53",
   "status": "proved",
   "theorems": [
    "Knx.c53_bounds"
   ],
   "note": "Writes only. Reads are C69."
  },
  {
   "property": "C54",
   "status": "partial",
   "theorems": [
    "Knx.c54_out_partial",
    "Knx.c54_long_refuted",
    "Knx.c54_in"
   ],
   "note": "False for messages of more than 56 octets: the daemon repeats its previous packet (c54_long_refuted)."
  },
  {
   "property": "C55",
   "status": "proved",
   "theorems": [
    "Knx.c55_write",
    "Knx.c55_read",
    "Knx.c55_elsewhere",
    "Knx.c55_description"
   ],
   "note": "The two conditions (address not 0, first datapoint displayable) are part of the claim; what happens without them is c23_refuted and c31_refuted."
  },
  {
   "property": "C56",
   "status": "proved",
   "theorems": [
    "Knx.c56_connect",
    "Knx.c56_disconnect"
   ],
   "note": "For all states, including the exceptions without association table or channel."
  },
  {
   "property": "C57",
   "status": "partial",
   "theorems": [
    "Knx.c57_partial",
    "Knx.c57_raises",
    "Knx.c57_refuted",
    "Knx.c57_own_refuted"
   ],
   "note": "False: every control telegram, having no application octet, raises IndexError when decoded (c57_raises), among them the confirmation of the package's own T_Connect request (c57_refuted). c57_partial: with at least one more octet such telegrams are ignored. c57_own_refuted: so does every confirmation of a request of this package that opens or closes a transport connection."
  },
  {
   "property": "C58",
   "status": "proved",
   "theorems": [
    "Knx.c58_delivered",
    "Knx.c58_short",
    "Knx.c58_ignored"
   ],
   "note": "The three theorems cover every connectionless telegram to an individual address."
  },
  {
   "property": "C59",
   "status": "partial",
   "theorems": [
    "Knx.c59_partial",
    "Knx.c59_refuted"
   ],
   "note": "False: a connect response ending within its endpoint raises TypeError (c59_refuted, for all such responses; this includes the 8 octet refusals that standard servers send). c59_partial: that is the only exception to the claim."
  },
  {
   "property": "C60",
   "status": "proved",
   "theorems": [
    "Knx.c60_search",
    "Knx.c60_connect",
    "Knx.c60_state",
    "Knx.c60_disconnect"
   ],
   "note": "Equality with a specified function on all bodies; the channel clause refers to the specification of C44."
  },
  {
   "property": "C61",
   "status": "proved",
   "theorems": [
    "Knx.c61_request",
    "Knx.c61_connect",
    "Knx.c61_other",
    "Knx.c61_lost",
    "Knx.c61_ack"
   ],
   "note": "Exact datagrams for every received datagram."
  },
  {
   "property": "C62",
   "status": "proved",
   "theorems": [
    "Knx.c62_once"
   ],
   "note": "Server and network are specified in Spec/Gateway.lean; new connections start another run."
  },
  {
   "property": "C63",
   "status": "partial",
   "theorems": [
    "Knx.c63_partial",
    "Knx.c63_lost_request",
    "Knx.c63_refuted",
    "Knx.c63_early_refuted"
   ],
   "note": "Proved when every acknowledgement arrives before the next write, and lost requests do no harm; refuted for any two messages after a lost acknowledgement or when written back to back."
  },
  {
   "property": "C64",
   "status": "partial",
   "theorems": [
    "Knx.c64_partial",
    "Knx.c64_refuted"
   ],
   "note": "Proved for consecutive requests; refuted for repetitions of every counter."
  },
  {
   "property": "C65",
   "status": "partial",
   "theorems": [
    "Knx.c65_partial",
    "Knx.c65_daemon",
    "Knx.c65_ends",
    "Knx.c65_refuted",
    "Knx.c65_closed"
   ],
   "note": "Proved for reports that decode to messages that can be displayed; refuted by every connection control telegram."
  },
  {
   "property": "C66",
   "status": "partial",
   "theorems": [
    "Knx.c66_partial",
    "Knx.c66_refuted",
    "Knx.c66_format_refuted",
    "Knx.c66_stops"
   ],
   "note": "Proved for messages that can be encoded and displayed; refuted for any other."
  },
  {
   "property": "C67",
   "status": "partial",
   "theorems": [
    "Knx.c67_request",
    "Knx.c67_partial",
    "Knx.c67_refuted"
   ],
   "note": "Request and reported endpoint proved; the reported individual address is wrong unless it equals medium and status by chance."
  },
  {
   "property": "C68",
   "status": "partial",
   "theorems": [
    "Knx.c68_partial",
    "Knx.c68_refuted"
   ],
   "note": "Proved for calls about other ASAPs than 0 and other addresses than the own ones; refuted for ASAP 0, which keeps the first address and raises TypeError."
  },
  {
   "property": "C69",
   "status": "partial",
   "theorems": [
    "Knx.c69_partial",
    "Knx.c69_content_partial",
    "Knx.c69_garbled_partial",
    "Knx.c69_empty_refuted",
    "Knx.c69_print_refuted",
    "Knx.c69_full_refuted",
    "Knx.c69_leak_refuted",
    "Knx.c69_digit_refuted",
    "Knx.c69_sign_refuted",
    "Knx.c69_exact"
   ],
   "note": "c69_exact: all positions read, for all texts. Reads proved inside the line and its NUL for hex lines followed by a NUL; independence of the memory proved for texts without white space; that nothing but the pairs of digits before it changes the packet proved for texts that go wrong where an octet should begin; refuted otherwise."
  },
  {
   "property": "C70",
   "status": "proved",
   "theorems": [
    "Knx.c70_address",
    "Knx.c70_group",
    "Knx.c70_group_unique",
    "Knx.c70_components",
    "Knx.c70_table",
    "Knx.c70_table_inj"
   ],
   "note": "Numbers as text are specified by Spec.Decimal and Spec.Hex4. The own address is an Address object, the others GroupAddress objects, as the parameter types say."
  },
  {
   "property": "C71",
   "status": "proved",
   "theorems": [
    "Knx.c71",
    "Knx.c71_history"
   ],
   "note": "Spec.complaint says what is missing, in terms of the listed addresses and types."
  },
  {
   "property": "C72",
   "status": "partial",
   "theorems": [
    "Knx.c72_partial",
    "Knx.c72_refuted"
   ],
   "note": "Full claim refuted: two lines read in one piece are lost, for every pair of requests. c72_partial: whenever the daemon reads line by line and the other traffic can be read. Confirmations and control telegrams are part of the other traffic; c65_refuted tells which end the reading."
  },
  {
   "property": "C73",
   "status": "partial",
   "theorems": [
    "Knx.c73_decode",
    "Knx.c73_encode_partial",
    "Knx.c73_refuted",
    "Knx.c73_float32"
   ],
   "note": "Refuted for numbers from -0.0099 to 0, which are stored as -20.48 and so below every number from -19 to -0.01; c73_encode_partial covers all other accepted numbers, c73_float32 all numbers that do not overflow."
  },
  {
   "property": "C74",
   "status": "partial",
   "theorems": [
    "Knx.c74_stops",
    "Knx.c74_killed",
    "Knx.c74_partial",
    "Knx.c74_closed_refuted",
    "Knx.c74_connections_refuted",
    "Knx.c74_blocked_refuted"
   ],
   "note": "Refuted three ways, each from every idle state: a client that closes between two reports ends the process by SIGPIPE, enough connections end it (or, with more than 1024 descriptors, make FD_SET write outside its set), a client that does not read blocks it. c74_stops says exactly when it ends or waits; c74_killed says that the signal needs a client that left and to which a text was written since; c74_partial covers runs without these causes. TCP behaviour is that of Linux as described in DESIGN.md."
  },
  {
   "property": "C75",
   "status": "proved",
   "theorems": [
    "Knx.c75_history"
   ],
   "note": "Discharges the assumption PossibleAll of C50, C51, C53, C54, C69 and C72 for every run of the process model."
  },
  {
   "property": "C76",
   "status": "partial",
   "theorems": [
    "Knx.c76_partial",
    "Knx.c76_port_refuted",
    "Knx.c76_short_refuted",
    "Knx.c76_joined_refuted"
   ],
   "note": "Refuted: the port is always 5555 whatever --port and --host say, -d X makes the daemon end because the option string lacks a colon and the null pointer is opened, -dX prints the usage if X contains an h. c76_partial: every command line of long options (abbreviated, joined or apart), unknown and ambiguous ones, letters other than d, -h and words. getopt_long is modelled after glibc; that the socket can be made is assumed."
  },
  {
   "property": "C77",
   "status": "partial",
   "theorems": [
    "Knx.c77_input",
    "Knx.c77_reports_partial",
    "Knx.c77_table_refuted"
   ],
   "note": "c77_input proves the first half for every connection. Refuted for reports: a client accepted when the table holds 64 clients is never written anything, however many others leave. c77_reports_partial covers every client of the table, until the daemon closes its connection."
  },
  {
   "property": "C78",
   "status": "proved",
   "theorems": [
    "Knx.c78_rest",
    "Knx.c78_fair"
   ],
   "note": "c78_fair gives the bound 2247 steps, for 1024 descriptors and 64 clients in the table; c78_rest says where the daemon comes to rest. When it ends or is blocked is exactly C74."
  },
  {
   "property": "C79",
   "status": "partial",
   "theorems": [
    "Knx.c79_range",
    "Knx.c79_copy_partial",
    "Knx.c79_whole_partial",
    "Knx.c79_partial",
    "Knx.c79_negative_refuted",
    "Knx.c79_large_refuted",
    "Knx.c79_text_refuted",
    "Knx.c79_text_raises",
    "Knx.c79_raises"
   ],
   "note": "Proved for floats from 0 to 51.199 (up to float rounding), exactly for the 512 temperatures a report can hold and for whole numbers; false for all negative numbers and from 51.2 on (c79_negative_refuted, c79_large_refuted), and for numbers given as text, which python repeats ten times (c79_text_refuted)."
  },
  {
   "property": "C80",
   "status": "partial",
   "theorems": [
    "Knx.c80_quad",
    "Knx.c80_print",
    "Knx.c80_texts",
    "Knx.c80_connect",
    "Knx.c80_requests",
    "Knx.c80_refused",
    "Knx.c80_zero_refuted",
    "Knx.c80_short_refuted",
    "Knx.c80_trailing_refuted",
    "Knx.c80_host_refuted"
   ],
   "note": "Proved for four decimal octets; exactly which texts are accepted in c80_texts, more than the claim says (c80_zero_refuted, c80_short_refuted, c80_trailing_refuted); host names are refused (c80_host_refuted)."
  },
  {
   "property": "C81",
   "status": "partial",
   "theorems": [
    "Knx.c81_partial",
    "Knx.c81_order",
    "Knx.c81_datagrams",
    "Knx.c81_pace",
    "Knx.c81_failed",
    "Knx.c81_silent_refuted",
    "Knx.c81_spoilt_refuted"
   ],
   "note": "Order, pace and datagrams hold in every run; completion needs a connect response, messages that can be described and encoded, and a transport that stays. Otherwise refuted: the program waits for ever or ends with messages unsent."
  },
  {
   "property": "C82",
   "status": "partial",
   "theorems": [
    "Knx.c82_partial",
    "Knx.c82_refuted",
    "Knx.c82_close_refuted"
   ],
   "note": "Holds for the messages of the first two minutes. Refuted for every later message of every run with one connect response, and no disconnect request is ever sent. That servers drop a connection after two minutes is the KNX standard's rule, not part of the model."
  },
  {
   "property": "C83",
   "status": "proved",
   "theorems": [
    "Knx.c83_machine",
    "Knx.c83_constructor",
    "Knx.c83_associate",
    "Knx.c83_disassociate"
   ],
   "note": "Histories include calls that raise and direct changes of the address table; changing the individual address is the subject of C68."
  },
  {
   "property": "C84",
   "status": "partial",
   "theorems": [
    "Knx.c84_factory_partial",
    "Knx.c84_order_partial",
    "Knx.c84_describe",
    "Knx.c84_rebuild_partial",
    "Knx.c84_exception_refuted",
    "Knx.c84_value_refuted"
   ],
   "note": "Proved for dictionaries without the keys value, bits and decoded_value, which stand for the whole datapoint. False of the exception, which is that of the first wrong value, and of value beside any property, where the later one wins (c84_value_refuted)."
  },
  {
   "property": "C85",
   "status": "partial",
   "theorems": [
    "Knx.c85_partial",
    "Knx.c85_iterator_refuted",
    "Knx.c85_live",
    "Knx.c85_live_refuted"
   ],
   "note": "Proved for lists and, in associate, for the list of the address table. False of every iterator given to associate, which makes its addresses known and associates none (c85_iterator_refuted), and of the list of the address table given to disassociate, which loses every second address only (c85_live, c85_live_refuted)."
  },
  {
   "property": "C86",
   "status": "partial",
   "theorems": [
    "Knx.c86_partial",
    "Knx.c86_shared_refuted"
   ],
   "note": "Proved for callers that hand over no nonempty dict twice and leave those they handed over alone. False of every dict that is not empty: it is kept, not copied (c86_shared_refuted)."
  },
  {
   "property": "C87",
   "status": "partial",
   "theorems": [
    "Knx.c87_machine",
    "Knx.c87_partial",
    "Knx.c87_refuted"
   ],
   "note": "c87_machine says for all histories what happens. Proved as stated for an address above all known ones; false of every new address below a known one, which the first table then takes for the next known address, and the greatest known one for nobody's (c87_refuted)."
  },
  {
   "property": "C88",
   "status": "partial",
   "theorems": [
    "Knx.c88_partial",
    "Knx.c88_calls_partial",
    "Knx.c88_refuted"
   ],
   "note": "Proved where the old value is stored as one object only and the new value not at all. Refuted for every table in which an ASAP has the address as another, equal object: it then receives telegrams to the new address and raises TypeError when it sends."
  },
  {
   "property": "C89",
   "status": "partial",
   "theorems": [
    "Knx.c89_datapoint",
    "Knx.c89_messages",
    "Knx.c89_raises",
    "Knx.c89_format",
    "Knx.c89_decoded",
    "Knx.c89_log",
    "Knx.c89_line_partial",
    "Knx.c89_hidden_refuted",
    "Knx.c89_forged_refuted"
   ],
   "note": "Proved up to the bits of a datapoint that its text does not show, for all texts of floats that are injective. Refuted: any such bit can be changed without changing the text. With different names of ASAPs, one message can have the text of two; with a line end in a name, the text is more than a line."
  },
  {
   "property": "C90",
   "status": "partial",
   "theorems": [
    "Knx.c90_objects",
    "Knx.c90_associations",
    "Knx.c90_same_partial",
    "Knx.c90_history_partial",
    "Knx.c90_stale_refuted",
    "Knx.c90_forged_refuted"
   ],
   "note": "Which tables share a text is proved for all tables whose names of ASAPs are on one line, an empty name being shown as none. Equal behaviour is proved for tables all of whose calls succeeded. Refuted: after a call that raised, a table that delivers to the wrong ASAP has the text of one that does not; with line ends in names, any two named group objects have the text of one."
  },
  {
   "property": "C91",
   "status": "partial",
   "theorems": [
    "Knx.c91_same",
    "Knx.c91_raises",
    "Knx.c91_frame_partial",
    "Knx.c91_fields",
    "Knx.c91_number",
    "Knx.c91_hidden_refuted",
    "Knx.c91_float_refuted"
   ],
   "note": "Which messages share a text is proved for all messages whose property data is without spaces (what is encoded is): exactly those of the same kind with the same fields, but for bits no property shows, equal floats, and an empty name being none. Equal frames are proved for datapoints written as the library writes them, which is shown of the fields of the factory and of encoded numbers. Refuted: a datapoint with a hidden bit set has the text of one without, the frames differ; and a number between -0.0099 and 0 is shown and sent as -20.48, in another frame than a number from -20.49 to -20.481."
  },
  {
   "property": "C92",
   "status": "partial",
   "theorems": [
    "Knx.c92_raises",
    "Knx.c92_makes",
    "Knx.c92_types",
    "Knx.c92_double",
    "Knx.c92_unknown_refuted",
    "Knx.c92_range_refuted",
    "Knx.c92_value_refuted"
   ],
   "note": "What is raised is proved exactly for all fields (c92_raises), and that the name decides the type (c92_types); the doubles in it are those of IEEE 754 (c92_double). The claim is false for every unknown field (c92_unknown_refuted) and every number out of range (c92_range_refuted, c92_value_refuted)."
  },
  {
   "property": "C93",
   "status": "partial",
   "theorems": [
    "Knx.c93_refuted",
    "Knx.c93_frames",
    "Knx.c93_wide_refuted",
    "Knx.c93_float_refuted",
    "Knx.c93_partial"
   ],
   "note": "False for every type other than the registered one (c93_refuted, c93_wide_refuted, c93_float_refuted); proved for the registered type (c93_partial)."
  },
  {
   "property": "C94",
   "status": "partial",
   "theorems": [
    "Knx.c94_once",
    "Knx.c94_partial",
    "Knx.c94_refuted"
   ],
   "note": "c94_once holds for every behaviour of the networks: at most once, in order, unchanged. All arrive only if nothing is lost and the application waits (c94_partial): with one lost acknowledgement the next request is lost, for any two requests (c94_refuted)."
  },
  {
   "property": "C95",
   "status": "proved",
   "theorems": [
    "Knx.c95_to_usb",
    "Knx.c95_from_usb"
   ],
   "note": "The conditions (line by line, other traffic readable) are part of the claim; without them see c72_refuted and c65_refuted."
  },
  {
   "property": "C96",
   "status": "proved",
   "theorems": [
    "Knx.c96_numbers",
    "Knx.c96_names",
    "Knx.c96_built"
   ],
   "note": "c96_numbers: for every map of ASAPs that keeps equality of numbers and every history of deeds (table calls, readdressing, group object calls, encode, decode, counters) the effects on the relabelled state are the relabelled effects; c96_names: states and histories equal up to names have effects equal up to names and equal octets; c96_built: building the tables from relabelled lists gives the relabelled tables. get_free_asap_value is not among the calls."
  },
  {
   "property": "C97",
   "status": "partial",
   "theorems": [
    "Knx.c97_refuted",
    "Knx.c97_taken_refuted",
    "Knx.c97_ack_refuted",
    "Knx.c97_closed_refuted",
    "Knx.c97_claim_refuted",
    "Knx.c97_partial"
   ],
   "note": "False: c97_refuted shows for every client that requests and acknowledgements have the same effect whatever their channel; c97_taken_refuted, c97_ack_refuted and c97_closed_refuted say what a datagram of another channel does. c97_partial: connection state responses, negative disconnect responses and requests with a counter that is neither expected nor the one before have no effect."
  },
  {
   "property": "C98",
   "status": "partial",
   "theorems": [
    "Knx.c98_refuted",
    "Knx.c98_forever_refuted",
    "Knx.c98_closed_partial"
   ],
   "note": "False of every client (c98_refuted), and for good (c98_forever_refuted); c98_closed_partial: after a disconnect response requests go out on channel 0."
  },
  {
   "property": "C99",
   "status": "proved",
   "theorems": [
    "Knx.c99_alike"
   ],
   "note": "For all states, also without tables, on USB and KNXnet/IP."
  },
  {
   "property": "C100",
   "status": "partial",
   "theorems": [
    "Knx.c100_total_refuted",
    "Knx.c100_length_refuted",
    "Knx.c100_partial"
   ],
   "note": "c100_total_refuted: for every tunnelling request octets behind the total length are decoded as part of the telegram; c100_length_refuted: octets behind the length octet's length are the lowest octets of the value; c100_partial: octets behind the declared length of a USB report are ignored."
  },
  {
   "property": "C101",
   "status": "partial",
   "theorems": [
    "Knx.c101_refuted",
    "Knx.c101_written_refuted",
    "Knx.c101_deaf_refuted",
    "Knx.c101_partial",
    "Knx.c101_connect"
   ],
   "note": "Refuted for every server with a data endpoint of its own; proved for all others and for the connect request."
  },
  {
   "property": "C102",
   "status": "partial",
   "theorems": [
    "Knx.c102_refuted",
    "Knx.c102_argument_refuted",
    "Knx.c102_unknown_refuted",
    "Knx.c102_partial"
   ],
   "note": "Refuted for every argument; holds for the address the program takes, its own name."
  },
  {
   "property": "C103",
   "status": "proved",
   "theorems": [
    "Knx.c103",
    "Knx.c103_delivered",
    "Knx.c103_slow"
   ],
   "note": "A timed composition of program, server and network; the bound on the delay is shown to be exact."
  },
  {
   "property": "C104",
   "status": "proved",
   "theorems": [
    "Knx.c104",
    "Knx.c103_reordered",
    "Knx.c104_opened",
    "Knx.c104_silent",
    "Knx.c104_delivered",
    "Knx.c104_tight"
   ],
   "note": "A lost datagram costs at most one request, and this is exact; reordering costs none."
  },
  {
   "property": "C105",
   "status": "partial",
   "theorems": [
    "Knx.c105_partial",
    "Knx.c105_refuted",
    "Knx.c105_misread",
    "Knx.c105_encode"
   ],
   "note": "Refuted for every acknowledgement with the code of a wrong sequence number, every connect response that refuses the tunnelling layer and every disconnect response with an error; holds for all other codes of the standard."
  },
  {
   "property": "C106",
   "status": "partial",
   "theorems": [
    "Knx.c106_partial",
    "Knx.c106_refuted",
    "Knx.c106_receive_partial",
    "Knx.c106_truncated"
   ],
   "note": "Refuted for every write request of an ASAP with the type DPT_Control_Dimming or DPT_Brightness and for every brightness of 256 or more received; holds for all other types of the standard, receiving also for dimming."
  },
  {
   "property": "C107",
   "status": "partial",
   "theorems": [
    "Knx.c107_partial",
    "Knx.c107_refuted",
    "Knx.c107_marker_refuted",
    "Knx.c107_invalid_refuted"
   ],
   "note": "The range is not checked (refuted for every number outside that fits), and 0x7FFF is sent and read as a number (refuted for all such numbers and datapoints); numbers in the range are encoded and never as 0x7FFF."
  },
  {
   "property": "C108",
   "status": "partial",
   "theorems": [
    "Knx.c108_partial",
    "Knx.c108_refuted"
   ],
   "note": "Refuted for every refusal that reaches the client, whatever its status and whatever happens then; holds if the refusal is lost."
  },
  {
   "property": "C109",
   "status": "partial",
   "theorems": [
    "Knx.c109_partial",
    "Knx.c109_refuted",
    "Knx.c109_receive_partial",
    "Knx.c109_receive_refuted"
   ],
   "note": "Exact: holds for frames of at most 53 octets, refuted for all longer ones, when sending and when receiving."
  },
  {
   "property": "C110",
   "status": "partial",
   "theorems": [
    "Knx.c110_partial",
    "Knx.c110_refuted",
    "Knx.c110_receive"
   ],
   "note": "Receiving is proved for all telegrams; sending holds for telegrams that fit a standard frame and is refuted for all others."
  },
  {
   "property": "C111",
   "status": "proved",
   "theorems": [
    "Knx.c111_units",
    "Knx.c111_ldata"
   ],
   "note": "For all integers given to the constructors, and for python before and since 3.11."
  },
  {
   "property": "C112",
   "status": "proved",
   "theorems": [
    "Knx.c112_paced",
    "Knx.c112_hasty"
   ],
   "note": "c78_rest and c78_fair say that the last line is read as well. The clients of the package wait for a time, not for the daemon."
  },
  {
   "property": "C113",
   "status": "proved",
   "theorems": [
    "Knx.c113_decode",
    "Knx.c113_device"
   ],
   "note": "Spec.decodeComplaint reads the octets field by field; c113_decode for every state whose listed ASAPs are given, c113_device for tables made by successful calls."
  },
  {
   "property": "C114",
   "status": "proved",
   "theorems": [
    "Knx.c114_datapoint",
    "Knx.c114_received",
    "Knx.c114_list",
    "Knx.c114_log",
    "Knx.c114_sent"
   ],
   "note": "Spec.wording and Spec.requestWording give the pattern and the fields; c114_log for whatever decode_msg returned. The text of a float is a parameter."
  },
  {
   "property": "C115",
   "status": "proved",
   "theorems": [
    "Knx.c115_addresses",
    "Knx.c115_objects",
    "Knx.c115_associations",
    "Knx.c115_link",
    "Knx.c115_numbers",
    "Knx.c115_state"
   ],
   "note": "Whether the address objects of an association are group addresses, and whether python shows an IntEnum by its name, are parameters."
  },
  {
   "property": "C116",
   "status": "partial",
   "theorems": [
    "Knx.c116_property_partial",
    "Knx.c116_group_refuted",
    "Knx.c116_refuted",
    "Knx.c116_after"
   ],
   "note": "Proved for property messages; refuted for every group message. Numbers of absolute value below 2^61 - 1 in c116_refuted, where hash(n) = n up to -1."
  },
  {
   "property": "C117",
   "status": "partial",
   "theorems": [
    "Knx.c117_log",
    "Knx.c117_value_refuted",
    "Knx.c117_refuted",
    "Knx.c117_write_refuted",
    "Knx.c117_write_partial"
   ],
   "note": "The lines are proved exactly for all runs (c117_log). That the log tells what was received and sent is refuted for every pair of requests with the same counter and for every message that cannot be encoded."
  },
  {
   "property": "C118",
   "status": "partial",
   "theorems": [
    "Knx.c118_log",
    "Knx.c118_hidden_refuted"
   ],
   "note": "c118_log: the lines exactly, for all runs; at most one message is sent without being logged, the first that has no text. c118_hidden_refuted: every such message is."
  },
  {
   "property": "C119",
   "status": "partial",
   "theorems": [
    "Knx.c119_log",
    "Knx.c119_refuted",
    "Knx.c119_partial",
    "Knx.c119_received_refuted",
    "Knx.c119_ack_refuted"
   ],
   "note": "c119_log: all lines exactly, for all frames and states, and that logging changes nothing else. c119_refuted: no line for transport codes other than data and for broadcasts. c119_partial: one line for every other data telegram, INFO exactly if it is for others. c119_received_refuted: unknown services of known groups. c119_ack_refuted: the text for acknowledgements. The text of floats and the order of sets are parameters."
  },
  {
   "property": "C120",
   "status": "proved",
   "theorems": [
    "Knx.c120_listener",
    "Knx.c120_events",
    "Knx.c120_server",
    "Knx.c120_requester",
    "Knx.c120_requester_events"
   ],
   "note": "c120_listener and c120_requester: all lines exactly, and the datagrams sent. c120_events and c120_requester_events: the log determines the events. c120_server: the response of every server. The text of floats and the order of sets are parameters; sendto does not raise in the model."
  },
  {
   "property": "C121",
   "status": "partial",
   "theorems": [
    "Knx.c121_log",
    "Knx.c121_connect",
    "Knx.c121_request",
    "Knx.c121_wire_partial",
    "Knx.c121_wire_refuted",
    "Knx.c121_ack_refuted"
   ],
   "note": "Proved for every message and every state whose counters are octets (c39_octets: all reachable ones). The lines of a client are those about the frames sent as long as it has a transport (c121_wire_partial); without one they are not (c121_wire_refuted). The counter logged for an acknowledgement is that of the frame, not of the request, if these differ (c121_ack_refuted)."
  },
  {
   "property": "C122",
   "status": "partial",
   "theorems": [
    "Knx.c122_lines",
    "Knx.c122_discarded",
    "Knx.c122_written",
    "Knx.c122_value_refuted",
    "Knx.c122_refuted"
   ],
   "note": "c122_lines: all lines with their levels, for all runs, and that logging changes nothing else. c122_discarded: what is printed for every telegram for others. c122_value_refuted: any two requests with the same counter whose telegrams are not for others print the same; c122_refuted: so the claim is false."
  },
  {
   "property": "C123",
   "status": "partial",
   "theorems": [
    "Knx.c123_double",
    "Knx.c123_overflow",
    "Knx.c123_neighbour",
    "Knx.c123_nearest_partial",
    "Knx.c123_refuted"
   ],
   "note": "c123_double: the first sentence, for both float types. c123_overflow, c123_neighbour: the second, for all ints. c123_nearest_partial: the third for ints below 2^53. c123_refuted: 2^60 + 2^36 + 1 is stored as 2^60 although 2^60 + 2^37 is nearer."
  },
  {
   "property": "C124",
   "status": "partial",
   "theorems": [
    "Knx.c124_report",
    "Knx.c124_write",
    "Knx.c124_own",
    "Knx.c124_discarded",
    "Knx.c124_received",
    "Knx.c124_refuted"
   ],
   "note": "c124_report and c124_write: all lines for every report and message, in every state. c124_own: the lines of level ERROR are those of C118, for all runs. c124_discarded, c124_received: what is printed for every data telegram. c124_refuted: all others leave only an empty result."
  },
  {
   "property": "C125",
   "status": "partial",
   "theorems": [
    "Knx.c125_int",
    "Knx.c125_int_only",
    "Knx.c125_stored_partial",
    "Knx.c125_refuted"
   ],
   "note": "c125_int: all ints that are M * 2^E hundredths are read back as written. c125_int_only: no other int is ever read. c125_stored_partial: all numbers within 1/100000 of such hundredths, except of 0, are read back as one double within a part in 2^52. c125_refuted: 0.35 is written, and no datapoint is read as 0.35."
  },
  {
   "property": "C126",
   "status": "proved",
   "theorems": [
    "Knx.c126_form",
    "Knx.c126_restored",
    "Knx.c126_again"
   ],
   "note": "c126_form: the first sentence, for ints and floats. c126_restored: the second, as an equivalence. c126_again: the third."
  },
  {
   "property": "C127",
   "status": "proved",
   "theorems": [
    "Knx.c127_float",
    "Knx.c127_int",
    "Knx.c127_only",
    "Knx.c127_unique"
   ],
   "note": "c127_float, c127_int: read back as written. c127_only: no other number is read. c127_unique: the last sentence."
  },
  {
   "property": "C128",
   "status": "proved",
   "theorems": [
    "Knx.c128_tunnel",
    "Knx.c128_usb",
    "Knx.c128_to_usb",
    "Knx.c128_from_usb",
    "Knx.c128_int"
   ],
   "note": "c128_tunnel: over two tunnels. c128_usb: over two USB interfaces. c128_to_usb, c128_from_usb: between the two. c128_int: the datapoint that both start from, made of an int. The conditions (nothing under way, line by line) are part of the claim; without them see c94_refuted and c72_refuted."
  }
 ]
}