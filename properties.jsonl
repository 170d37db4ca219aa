{"id": "C01", "title": "Hex text round trip", "statement": "Rendering a message with str() and parsing the text back with Msg.make_from_str gives the same octets; parsing any even-length text of hexadecimal digits (either case) and rendering it gives the same text in upper case.", "quantifier": "every octet sequence of every length; every even-length string of hex digits", "why_tests_cant": "The space of byte strings is infinite; a test compares a few literals.", "anchors": [{"file": "knx_stack/msg.py", "symbols": ["Msg.make_from_str", "Msg.stringtooctects", "Msg.__repr__"]}]}
{"id": "C02", "title": "Hex parser acceptance", "statement": "Msg.make_from_str raises ValueError exactly when some character is not a hex digit, and otherwise yields exactly floor(n/2) octets, the octet k being built from the characters 2k and 2k+1; an odd trailing digit is validated and then dropped.", "quantifier": "every string of Unicode characters", "why_tests_cant": "Acceptance is a statement about all strings, including malformed ones in every position.", "anchors": [{"file": "knx_stack/msg.py", "symbols": ["Msg.make_from_str", "Msg.stringtooctects"]}]}
{"id": "C03", "title": "Consuming a message loses nothing", "statement": "octect(), short() and long() return the big-endian value of the first 1, 2 or 4 octets together with the remaining octets; re-emitting the value's octets in front of the remainder restores the message; IndexError is raised exactly when fewer octets are present.", "quantifier": "every message of every length; every 16 and 32 bit value", "why_tests_cant": "All lengths and all values of the prefix are involved.", "anchors": [{"file": "knx_stack/msg.py", "symbols": ["Msg.octect", "Msg.short", "Msg.long", "Short.octects", "Long.octects"]}]}
{"id": "C04", "title": "Group address notations agree", "statement": "Free, two-level and three-level notations of a group address are three views of the same 16 bit value: building an address from any in-range notation and reading it in any other is lossless, components always stay in range, and two addresses compare equal exactly when their components agree.", "quantifier": "all 65536 addresses and all integers supplied as components", "why_tests_cant": "Tests use a handful of addresses; the claim is a bijection between three notations.", "anchors": [{"file": "knx_stack/address.py", "symbols": ["GroupAddress", "TwoLevelStyle", "ThreeLevelStyle", "Address.__eq__"]}]}
{"id": "C05", "title": "TSAP numbering is a faithful, sorted index", "statement": "Whatever sequence of successful or failing add/remove calls was performed, the addresses are in ascending order, every address in the table resolves to a TSAP between 1 and the table size, and asking for the address of that TSAP gives the address back.", "quantifier": "every initial list and every history of AddressTable.add/remove calls", "why_tests_cant": "Invariant over unbounded call histories.", "anchors": [{"file": "knx_stack/definition/layer/network/address_table.py", "symbols": ["AddressTable.__init__", "AddressTable.add", "AddressTable.remove", "AddressTable.get_tsap", "AddressTable.get_address"]}]}
{"id": "C06", "title": "Address table capacity", "statement": "No sequence of add/associate calls makes a table grow beyond max(initial size, max_size); an add at capacity raises AddressTableException and changes nothing.", "quantifier": "every initial table and every history of add, remove, associate and disassociate calls", "why_tests_cant": "Invariant over unbounded histories including failing calls.", "anchors": [{"file": "knx_stack/definition/layer/network/address_table.py", "symbols": ["AddressTable.add", "AddressTable.max_size"]}, {"file": "knx_stack/definition/layer/transport/association_table.py", "symbols": ["AssociationTable.associate"]}]}
{"id": "C07", "title": "No duplicate group addresses", "statement": "A group address occurs at most once in the address table however the associations were made.", "quantifier": "every history of associate/disassociate calls on a table that starts without duplicates; also direct AddressTable.add calls", "why_tests_cant": "Invariant over histories; the direct add path violates it, which no existing test exercises.", "anchors": [{"file": "knx_stack/definition/layer/transport/association_table.py", "symbols": ["AssociationTable.associate", "AssociationTable.disassociate"]}, {"file": "knx_stack/definition/layer/network/address_table.py", "symbols": ["AddressTable.add"]}]}
{"id": "C08", "title": "Routing table equals the associations", "statement": "After any history of calls, get_asaps_from_address(a) lists exactly the ASAPs that were associated with a and not disassociated from it since, as often as they were associated and in ASAP creation order.", "quantifier": "every history of successful associate calls and of disassociate calls, every address", "why_tests_cant": "Refinement of a derived index to the abstract relation over unbounded histories.", "anchors": [{"file": "knx_stack/definition/layer/transport/association_table.py", "symbols": ["AssociationTable.associate", "AssociationTable.disassociate", "AssociationTable._rebuild_tsap_asaps", "AssociationTable.get_asaps_from_address"]}]}
{"id": "C09", "title": "associate changes only what it says", "statement": "A successful associate(asap, addresses) appends exactly these addresses to that ASAP and leaves the addresses, and the routing of every other address, of all other ASAPs unchanged even though TSAP numbers are reshuffled.", "quantifier": "every reachable association table, ASAP and address list", "why_tests_cant": "Frame condition over all other ASAPs and addresses, with renumbering of an index.", "anchors": [{"file": "knx_stack/definition/layer/transport/association_table.py", "symbols": ["AssociationTable.associate"]}]}
{"id": "C10", "title": "disassociate is isolated", "statement": "disassociate(asap, addresses) removes the addresses from that ASAP only: every other ASAP keeps receiving telegrams for, and can still send to, its own addresses.", "quantifier": "every reachable association table, every ASAP and address list", "why_tests_cant": "Sharing patterns between ASAPs are unbounded; the shipped tests never share an address.", "anchors": [{"file": "knx_stack/definition/layer/transport/association_table.py", "symbols": ["AssociationTable.disassociate"]}, {"file": "knx_stack/definition/layer/network/address_table.py", "symbols": ["AddressTable.remove"]}]}
{"id": "C11", "title": "A failed associate changes nothing", "statement": "If associate raises AddressTableException, the routing of telegrams to ASAPs is what it was before the call.", "quantifier": "every reachable association table and address list, every point at which the table fills up", "why_tests_cant": "Quantifies over the failure point inside a multi-address call.", "anchors": [{"file": "knx_stack/definition/layer/transport/association_table.py", "symbols": ["AssociationTable.associate"]}, {"file": "knx_stack/definition/layer/network/address_table.py", "symbols": ["AddressTable.add"]}]}
{"id": "C12", "title": "Proposed free ASAP is free", "statement": "get_free_asap_value returns a number that no registered ASAP uses.", "quantifier": "every set of registered ASAP values and every order of registration", "why_tests_cant": "Depends on every possible insertion order of keys.", "anchors": [{"file": "knx_stack/definition/layer/transport/association_table.py", "symbols": ["AssociationTable.get_free_asap_value"]}]}
{"id": "C13", "title": "TSAP 0 means the own individual address", "statement": "get_tsap(a) is 0 exactly when a equals the device's individual address and is not registered as a group address; it is None exactly when a is unknown; otherwise it is at least 1.", "quantifier": "every reachable table and every address", "why_tests_cant": "Total characterisation over all addresses and tables, including the collision of a group address with the individual address.", "anchors": [{"file": "knx_stack/definition/layer/network/address_table.py", "symbols": ["AddressTable.get_tsap"]}, {"file": "knx_stack/state.py", "symbols": ["State.get_tsap"]}]}
{"id": "C14", "title": "Group object table behaves as a map", "statement": "After any history, the datapoint type of an ASAP is the one given by the last associate for an equal ASAP value not followed by a disassociate, each ASAP value is listed once, and listing order is first-registration order.", "quantifier": "every history of associate/disassociate calls", "why_tests_cant": "History-quantified; equality of ASAPs ignores names.", "anchors": [{"file": "knx_stack/definition/layer/application/groupobject_table.py", "symbols": ["GroupObjectTable.associate", "GroupObjectTable.disassociate", "GroupObjectTable.associations"]}]}
{"id": "C15", "title": "Datapoint fields are independent", "statement": "For every datapoint type and every field: after writing v to a field, reading it gives v modulo the field width, every other field keeps its value, and the raw value stays within the type's width.", "quantifier": "every datapoint type, field, raw value and written integer", "why_tests_cant": "2^32 raw values times all writes; tests check single literals.", "anchors": [{"file": "knx_stack/datapointtypes.py", "symbols": ["DPT_Switch", "DPT_SceneControl", "DPTSetupClima", "DPTInfoClimaReport", "DPT_Control_Dimming", "DPTVimarScene"]}]}
{"id": "C16", "title": "Enumerated fields", "statement": "Writing an enumerated field by name and reading it gives the member with that code; an unknown name raises and leaves the raw value unchanged; reading raises ValueError exactly when the stored code has no name.", "quantifier": "every enumerated field, name and raw value", "why_tests_cant": "Exhaustive over raw values and names; undefined codes are never tested.", "anchors": [{"file": "knx_stack/datapointtypes.py", "symbols": ["DPTSetupClima.Funzionamento", "DPT_Switch.Action", "DPTVimarScene.Command"]}]}
{"id": "C17", "title": "Describe and rebuild", "statement": "DPT_Factory.make(*Description_Factory.make(d)) rebuilds a datapoint with the same description as d; for types whose described fields cover all bits it has the same raw value.", "quantifier": "every datapoint type and every raw value whose description exists", "why_tests_cant": "All 2^8 .. 2^32 raw values per type.", "anchors": [{"file": "knx_stack/datapointtypes.py", "symbols": ["DPT_Factory.make", "Description_Factory.make"]}]}
{"id": "C18", "title": "DPT 9 decoding value", "statement": "DPT_Float_16.decode gives the value 0.01 * M * 2^E of the KNX 2-octet float, M being the 12 bit two's complement mantissa, up to one double rounding.", "quantifier": "all 65536 raw values", "why_tests_cant": "Whole value space and a floating-point error bound.", "anchors": [{"file": "knx_stack/datapointtypes.py", "symbols": ["DPT_Float_16.decode", "DPT_Float_16.twos_comp"]}]}
{"id": "C19", "title": "DPT 9 decode then encode is stable", "statement": "Encoding a decoded value succeeds and decodes to the same number again (for every raw value but the most negative one, 0xF800, which decodes but cannot be encoded).", "quantifier": "all 65536 raw values", "why_tests_cant": "Floating-point division and decimal rounding for the complete domain.", "anchors": [{"file": "knx_stack/datapointtypes.py", "symbols": ["DPT_Float_16.encode", "DPT_Float_16.decode"]}]}
{"id": "C20", "title": "DPT 9 encoding error", "statement": "Decoding an encoded number gives the number back within one quantisation step (0.01 * 2^E), rounded towards zero.", "quantifier": "every finite double within the representable range", "why_tests_cant": "Continuum of inputs; fails for negative numbers that round to zero (and for -0.0), which decode as -20.48.", "anchors": [{"file": "knx_stack/datapointtypes.py", "symbols": ["DPT_Float_16.encode", "DPT_Float_16.decode"]}]}
{"id": "C21", "title": "DPT 9 range check is safe", "statement": "DPT_Float_16.encode raises exactly when the number's magnitude is not representable, and then leaves the datapoint untouched; otherwise exponent and mantissa fit their fields.", "quantifier": "every finite double", "why_tests_cant": "Boundary over a continuum, and exception safety.", "anchors": [{"file": "knx_stack/datapointtypes.py", "symbols": ["DPT_Float_16.encode"]}]}
{"id": "C22", "title": "DPT 14 round trip", "statement": "DPT_Float_32 decoding a raw value and encoding the result restores the raw value, for every finite value.", "quantifier": "all 2^32 raw values that are finite floats", "why_tests_cant": "2^32 values.", "anchors": [{"file": "knx_stack/datapointtypes.py", "symbols": ["DPT_Float_32.encode", "DPT_Float_32.decode"]}]}
{"id": "C23", "title": "Group write round trip", "statement": "Encoding a group value write indication for an ASAP and decoding the frame on USB yields one indication for each group object associated with the ASAP's first address, carrying the written value (for sub-octet types the low 6 bits under the write code).", "quantifier": "every state in which encode succeeds, every datapoint type and value", "why_tests_cant": "Composition of two 10-stage pipelines over all tables and values.", "anchors": [{"file": "knx_stack/__init__.py", "symbols": ["encode_msg", "decode_msg"]}, {"file": "knx_stack/encode/layer/application/a_group_value_write/encode.py", "symbols": ["al_encode"]}, {"file": "knx_stack/decode/layer/application/a_group_value.py", "symbols": ["decode"]}]}
{"id": "C24", "title": "A write request is confirmed to its sender", "statement": "The frame built for a group value write request, returned by the bus as a confirmation (message code changed from L_Data.req to L_Data.con, confirm bit set by the bus), decodes to write confirmations carrying the requested value and the bus status for every ASAP on that address, on USB and on KNXnet/IP.", "quantifier": "every state, value, medium, sequence counter and channel", "why_tests_cant": "Cross-media composition over all tables, values and counters.", "anchors": [{"file": "knx_stack/__init__.py", "symbols": ["encode_msg", "decode_msg"]}, {"file": "knx_stack/encode/cemi/ldata/req.py", "symbols": ["encode"]}]}
{"id": "C25", "title": "Group read round trip", "statement": "The frame built for a group value read request, seen as confirmation or indication, decodes to read messages for exactly the ASAPs on that address.", "quantifier": "every state in which encode succeeds, both media", "why_tests_cant": "Composition over all tables.", "anchors": [{"file": "knx_stack/encode/layer/application/a_group_value_read/req.py", "symbols": ["encode"]}, {"file": "knx_stack/__init__.py", "symbols": ["decode_msg"]}]}
{"id": "C26", "title": "Property service round trip", "statement": "The confirmation of a property value read/write request carries object index, property id, element count and start index reduced to 8, 8, 4 and 12 bits, and the data octets exactly.", "quantifier": "every integer argument, every hex data string up to the frame limit, both media", "why_tests_cant": "All integers and all data lengths.", "anchors": [{"file": "knx_stack/encode/layer/application/a_property_value_write/req.py", "symbols": ["encode"]}, {"file": "knx_stack/encode/layer/application/a_property_value_read/req.py", "symbols": ["encode"]}, {"file": "knx_stack/decode/layer/application/a_property_value.py", "symbols": ["decode"]}]}
{"id": "C27", "title": "Declared lengths are true", "statement": "In every encoded frame the USB data length, USB body length, cEMI payload length and KNXnet/IP total length equal the number of octets that follow (respectively the whole datagram).", "quantifier": "every encodable message, state and medium", "why_tests_cant": "Property data is unbounded; the one-octet lengths wrap silently above 255.", "anchors": [{"file": "knx_stack/encode/usb_hid/report_header/packet_info.py", "symbols": ["encode"]}, {"file": "knx_stack/encode/usb_hid/report_body/usb_protocol_header/body_length.py", "symbols": ["encode"]}, {"file": "knx_stack/encode/layer/network/n_data_individual/req.py", "symbols": ["encode"]}, {"file": "knx_stack/encode/knxnet_ip/tunneling/req.py", "symbols": ["encode"]}]}
{"id": "C28", "title": "Group frame layout", "statement": "A group request frame is exactly: the USB or tunnelling envelope, message code 0x11, no additional info, control 0x96 0xE0, source 0, the ASAP's first address, payload length, TPCI 0, APCI and big-endian value of the registered type's size.", "quantifier": "every state and group message for which encode succeeds", "why_tests_cant": "Layout for all addresses, types and values.", "anchors": [{"file": "knx_stack/__init__.py", "symbols": ["encode_msg"]}, {"file": "knx_stack/encode/layer/link/l_data/encode.py", "symbols": ["ll_encode"]}, {"file": "knx_stack/encode/layer/network/n_data_group/encode.py", "symbols": ["nl_encode"]}, {"file": "knx_stack/encode/layer/transport/t_data_group/encode.py", "symbols": ["tl_encode"]}]}
{"id": "C29", "title": "Telegram fan-out", "statement": "A group telegram is delivered to exactly the ASAPs that are associated with its destination and have a datapoint type: once each, in group object order, each with the big-endian payload reduced to the type's width, as read, response or write according to its APCI.", "quantifier": "every state with consistent tables, every frame of every length", "why_tests_cant": "All tables, payload lengths and service codes.", "anchors": [{"file": "knx_stack/decode/layer/transport/t_data_group/ind.py", "symbols": ["decode"]}, {"file": "knx_stack/state.py", "symbols": ["State.get_asaps_and_dpts"]}, {"file": "knx_stack/decode/layer/application/a_group_value.py", "symbols": ["decode"]}]}
{"id": "C30", "title": "Foreign telegrams are dropped", "statement": "A group telegram whose destination is not registered (or is only the own individual address) yields no message and no exception, whatever its service code and payload.", "quantifier": "every state with an association table, every frame with an unregistered destination", "why_tests_cant": "All destinations and payloads.", "anchors": [{"file": "knx_stack/decode/layer/transport/t_data_group/ind.py", "symbols": ["decode"]}, {"file": "knx_stack/decode/layer/transport/t_data_group/con.py", "symbols": ["decode"]}]}
{"id": "C31", "title": "Decoding does not fail on complete telegrams", "statement": "Decoding a USB report raises nothing but IndexError (truncated report), KeyError (registered address without association) or ValueError; a complete group telegram to an associated address never raises.", "quantifier": "every byte string and every state with tables", "why_tests_cant": "All byte strings; the last clause is false because logging a datapoint with an undefined operating-mode code raises ValueError.", "anchors": [{"file": "knx_stack/decode/layer/transport/t_data_group/ind.py", "symbols": ["decode"]}, {"file": "knx_stack/datapointtypes.py", "symbols": ["DPT.__repr__", "Description_Factory.make"]}]}
{"id": "C32", "title": "decode_msg returns a list", "statement": "decode_msg returns a list of messages for every input it does not reject.", "quantifier": "every byte string, both media", "why_tests_cant": "All inputs; false for group frames that are not plain group data (None on USB) and for tunnelling acks (a tuple).", "anchors": [{"file": "knx_stack/decode/layer/network/n_data_group/ind.py", "symbols": ["decode"]}, {"file": "knx_stack/decode/knxnet_ip/tunneling/ack.py", "symbols": ["decode"]}, {"file": "knx_stack/__init__.py", "symbols": ["decode_msg"]}]}
{"id": "C33", "title": "Decoding is history independent", "statement": "What decode_msg returns depends only on the medium, the tables, the two sequence counters and the message, never on previously decoded or encoded messages; decoding never alters the tables.", "quantifier": "every pair of states agreeing on these parts, every message", "why_tests_cant": "Two-run property over all histories.", "anchors": [{"file": "knx_stack/__init__.py", "symbols": ["decode_msg"]}, {"file": "knx_stack/state.py", "symbols": ["State"]}]}
{"id": "C34", "title": "Report padding is ignored", "statement": "Octets following the declared USB data length do not influence decoding, so zero-padded or dirty 64-octet reports decode as the bare frame.", "quantifier": "every report and every padding", "why_tests_cant": "All padding contents and lengths.", "anchors": [{"file": "knx_stack/decode/usb_hid/report_header/packet_info.py", "symbols": ["decode"]}, {"file": "knx_stack/decode/usb_hid/report_body/usb_protocol_header/body_length.py", "symbols": ["decode"]}]}
{"id": "C35", "title": "Additional info is skipped", "statement": "cEMI additional information of any declared length up to 255 octets is skipped and does not influence the decoded message.", "quantifier": "every additional info content and length, every frame", "why_tests_cant": "All lengths and contents.", "anchors": [{"file": "knx_stack/decode/cemi/msg_code.py", "symbols": ["decode"]}]}
{"id": "C36", "title": "Foreign reports are ignored", "statement": "A USB report with another report id, packet type, protocol version, header length, protocol id, EMI id or message code, and a KNXnet/IP datagram with another header or unknown service, yields the empty list and leaves the state unchanged.", "quantifier": "every byte string with such a header", "why_tests_cant": "All values of each header octet and all bodies.", "anchors": [{"file": "knx_stack/decode/usb_hid/report_header/report_identifier.py", "symbols": ["decode"]}, {"file": "knx_stack/decode/cemi/msg_code.py", "symbols": ["decode"]}, {"file": "knx_stack/decode/knxnet_ip/header.py", "symbols": ["decode"]}]}
{"id": "C37", "title": "Encoding is repeatable", "statement": "Encoding the same application message twice gives the same octets; encoding changes nothing in the state but the pending service (asap, apci, address type) and, for tunnelling acks, the remote counter; an encode that raises leaves tables and counters unchanged.", "quantifier": "every state and message", "why_tests_cant": "Two-run property and frame condition including failing runs.", "anchors": [{"file": "knx_stack/__init__.py", "symbols": ["encode_msg"]}, {"file": "knx_stack/state.py", "symbols": ["State"]}]}
{"id": "C38", "title": "Transport PDU classification", "statement": "Setting the PDU kind of a link frame and reading it back gives that kind, and every received frame has exactly one kind.", "quantifier": "every PDU kind, address type, destination and TPCI octet", "why_tests_cant": "All TPCI octets; false for T_Connect/T_Disconnect, which read back as T_Data_Connected, and for unclassified TPCI values.", "anchors": [{"file": "knx_stack/definition/layer/link/ldata.py", "symbols": ["L_Data.nsdu"]}]}
{"id": "C39", "title": "Sequence counters stay octets", "statement": "Both tunnelling sequence counters are between 0 and 255 after any history of encode/decode calls and assignments.", "quantifier": "every history of encode_msg, decode_msg and counter assignments, including raising ones", "why_tests_cant": "Unbounded histories.", "anchors": [{"file": "knx_stack/state.py", "symbols": ["State.sequence_counter_remote", "State.sequence_counter_local"]}]}
{"id": "C40", "title": "In-sequence delivery only", "statement": "A tunnelling request delivers its telegram exactly when its counter equals the expected one; a request carrying any other counter delivers nothing and leaves the state unchanged.", "quantifier": "every state, channel, counter and frame body", "why_tests_cant": "All 256x256 counter pairs times all bodies.", "anchors": [{"file": "knx_stack/decode/knxnet_ip/tunneling/req.py", "symbols": ["decode"]}]}
{"id": "C41", "title": "Acknowledging a new request", "statement": "For a request with the expected counter the ack produced carries the request's counter, the connection's channel and no error, and the expected counter advances by one modulo 256 exactly once even if the ack is produced repeatedly for the same request.", "quantifier": "every state with counters in range", "why_tests_cant": "All counters including the wrap, repeated acks.", "anchors": [{"file": "knx_stack/encode/knxnet_ip/tunneling/ack.py", "symbols": ["encode"]}]}
{"id": "C42", "title": "Acknowledging a retransmission", "statement": "A retransmission of the last accepted request is acknowledged again with that request's own counter and is not delivered a second time.", "quantifier": "every counter value, every number of retransmissions", "why_tests_cant": "All counters including the wrap; the ack clause is false (the ack carries the next counter, and none is sent at the wrap).", "anchors": [{"file": "knx_stack/decode/knxnet_ip/tunneling/req.py", "symbols": ["decode"]}, {"file": "knx_stack/encode/knxnet_ip/tunneling/ack.py", "symbols": ["encode"]}]}
{"id": "C43", "title": "Local counter advances per acknowledged request", "statement": "The counter used for outgoing tunnelling requests advances by one modulo 256 exactly when an ack with that counter is decoded; duplicate and foreign acks never advance it and encoding requests never does.", "quantifier": "every state and every sequence of acks and requests", "why_tests_cant": "Unbounded interleavings of acks, duplicates and requests.", "anchors": [{"file": "knx_stack/decode/knxnet_ip/tunneling/ack.py", "symbols": ["decode"]}, {"file": "knx_stack/encode/knxnet_ip/tunneling/req.py", "symbols": ["encode"]}]}
{"id": "C44", "title": "Channel id life cycle", "statement": "The communication channel id of a new state is 0; it is changed only by a successful connect response (to the id it carries) and by a successful disconnect response (to 0); every outgoing tunnelling frame carries the current id.", "quantifier": "every history of messages", "why_tests_cant": "Invariant over unbounded histories and all messages.", "anchors": [{"file": "knx_stack/decode/knxnet_ip/core/connect/res.py", "symbols": ["decode"]}, {"file": "knx_stack/decode/knxnet_ip/core/disconnect/res.py", "symbols": ["decode"]}, {"file": "knx_stack/encode/knxnet_ip/tunneling/connection_header.py", "symbols": ["create"]}]}
{"id": "C45", "title": "Endpoint round trip", "statement": "The endpoint (address, port modulo 2^16) put in connect, connection state, disconnect and search requests is recovered exactly by the endpoint parser, and these frames have the standard service codes and lengths.", "quantifier": "every IPv4 address, port and channel", "why_tests_cant": "2^48 endpoints.", "anchors": [{"file": "knx_stack/encode/knxnet_ip/core/hpai.py", "symbols": ["create"]}, {"file": "knx_stack/definition/knxnet_ip/msg.py", "symbols": ["Msg.HPAI"]}, {"file": "knx_stack/encode/knxnet_ip/core/connect/req.py", "symbols": ["encode"]}]}
{"id": "C46", "title": "Exactly-once, in-order delivery in a session", "statement": "In a tunnelling client session, if the gateway sends telegrams with consecutive counters modulo 256, each transmitted one or more times before the next, the client decodes each telegram exactly once and in order.", "quantifier": "every number of telegrams, every number of retransmissions of each, every content", "why_tests_cant": "Unbounded schedules; needs an induction over sessions of any length.", "anchors": [{"file": "knx_stack/client/knxnet_ip.py", "symbols": ["Tunneling.datagram_received"]}, {"file": "knx_stack/decode/knxnet_ip/tunneling/req.py", "symbols": ["decode"]}]}
{"id": "C47", "title": "connected means connected", "statement": "The client reports connected only after the gateway accepted the connection (connect response with status no-error).", "quantifier": "every history of datagrams", "why_tests_cant": "All histories; false: any parsable connect response, including a refusal, sets connected.", "anchors": [{"file": "knx_stack/client/knxnet_ip.py", "symbols": ["Tunneling.datagram_received", "Tunneling.connected"]}]}
{"id": "C48", "title": "A new connection restarts numbering", "statement": "After a connect response both sequence counters are 0, as a new tunnelling connection requires.", "quantifier": "every history before the connect response", "why_tests_cant": "All histories; false: the counter for outgoing requests is kept.", "anchors": [{"file": "knx_stack/client/knxnet_ip.py", "symbols": ["Tunneling.datagram_received"]}]}
{"id": "C49", "title": "Client transmissions are the encoded octets", "statement": "Every datagram the client puts on the wire is exactly the octets of the encoded message, and received octets reach the decoder unchanged, although both pass through hexadecimal text.", "quantifier": "every message and datagram", "why_tests_cant": "All byte strings through text and back.", "anchors": [{"file": "knx_stack/client/knxnet_ip.py", "symbols": ["Tunneling.send", "Tunneling.datagram_received"]}]}
{"id": "C50", "title": "USB daemon sends only what a client submitted", "statement": "Every report the daemon writes to the bus device starts with the octets of the line just submitted by a client.", "quantifier": "every daemon history: device reads, client reads of any content and segmentation", "why_tests_cant": "Unbounded histories; false: a malformed or empty line rewrites the previous packet, even one read from the bus.", "anchors": [{"file": "daemon/usbhid.c", "symbols": ["read_from_client", "write_to_knx_cemi", "main"]}]}
{"id": "C51", "title": "USB daemon broadcast", "statement": "A report read from the device is sent, as lower-case hex text plus newline, to exactly the clients in the client table, which after any history of connects and disconnects are connected clients, each at most once.", "quantifier": "every history of connects, disconnects and reports", "why_tests_cant": "Unbounded histories of a slot table.", "anchors": [{"file": "daemon/usbhid.c", "symbols": ["write_to_client", "main"]}]}
{"id": "C52", "title": "USB feature reports", "statement": "A bus access server feature response or info report yields the bus connection status or active EMI type it carries and nothing else, independent of the tables (which may be absent).", "quantifier": "every report and state", "why_tests_cant": "All report contents.", "anchors": [{"file": "knx_stack/decode/usb_hid/report_body/usb_protocol_header/bus_access_server_feature/service_identifier.py", "symbols": ["decode"]}, {"file": "knx_stack/decode/usb_hid/report_body/usb_protocol_header/bus_access_server_feature/device_feature_info/feature_identifier.py", "symbols": ["decode"]}]}
{"id": "C53", "title": "USB daemon writes within its buffers", "statement": "Whatever clients and the device send, the daemon never writes outside its packet and text buffers.", "quantifier": "every history of connects, disconnects, device reports and client reads of any content and segmentation", "why_tests_cant": "All contents and histories; a test shows absence of a crash for one.", "anchors": [{"file": "daemon/usbhid.c", "symbols": ["read_from_client", "write_to_client", "read_from_knx_cemi", "main"]}]}
{"id": "C54", "title": "USB client and bus exchange the same octets", "statement": "A message written by the USB client reaches the device as a report that starts with exactly the encoded octets, and a report of the device is decoded by every client as exactly its octets, although both pass through text lines and the daemon.", "quantifier": "every message, every report, every state, after every daemon history", "why_tests_cant": "Composition of three programs' text conversions for all octet strings; false for messages of more than 56 octets.", "anchors": [{"file": "knx_stack/client/usbhid.py", "symbols": ["Client._knx_write", "Client._knx_read"]}, {"file": "daemon/usbhid.c", "symbols": ["read_from_client", "write_to_client", "main"]}]}
{"id": "C55", "title": "Group messages reach other devices", "statement": "A group value write or read request encoded by one device, changed the way the bus changes frames (message code, additional information, control bits except the address type, source), is decoded by another device, with its own tables, medium and counters, as exactly one indication per registered ASAP it has on that address, carrying the written value (described identically where both use the same type); devices without the address see nothing. The address must not be 0 and the first datapoint must be displayable.", "quantifier": "every pair of states, every ASAP, datapoint, additional information, control octets and source", "why_tests_cant": "Relates two unrelated configurations for all values and bus modifications.", "anchors": [{"file": "knx_stack/encode/layer/application/a_group_value_write/req.py", "symbols": ["encode"]}, {"file": "knx_stack/decode/layer/transport/t_data_group/ind.py", "symbols": ["decode"]}, {"file": "knx_stack/decode/cemi/msg_code.py", "symbols": ["decode"]}]}
{"id": "C56", "title": "Connection frames", "statement": "T_Connect and T_Disconnect requests are encoded as exactly the control telegrams with transport control octets 0x80 and 0x81 to the individual address, in the frame of the medium, and change nothing in the state but the pending address type.", "quantifier": "every state", "why_tests_cant": "All addresses, media, channels and counters.", "anchors": [{"file": "knx_stack/encode/layer/transport/t_connect/req.py", "symbols": ["encode"]}, {"file": "knx_stack/encode/layer/transport/t_disconnect/req.py", "symbols": ["encode"]}]}
{"id": "C57", "title": "Transport control telegrams are ignored", "statement": "A received telegram of a transport connection (T_Connect, T_Disconnect, T_ACK, T_NAK, numbered data) addressed to an individual address is ignored: no message, no exception.", "quantifier": "every addresses, control octets, additional information, medium and state", "why_tests_cant": "All telegrams; false: control telegrams have no application octet, and decoding any of them raises IndexError.", "anchors": [{"file": "knx_stack/definition/layer/link/ldata.py", "symbols": ["L_Data.make_from"]}, {"file": "knx_stack/decode/layer/network/n_data_individual/ind.py", "symbols": ["decode"]}]}
{"id": "C58", "title": "Individually addressed telegrams", "statement": "A connectionless telegram to an individual address is delivered as exactly one property message with the object index, property id, count, start index and data it carries if it is a property service and an indication from the own address or a confirmation to it; with fewer than four data octets it raises IndexError; all other services and devices are ignored.", "quantifier": "every telegram, additional information, medium and state", "why_tests_cant": "All telegrams; complete case analysis.", "anchors": [{"file": "knx_stack/decode/layer/transport/t_data_individual/ind.py", "symbols": ["decode"]}, {"file": "knx_stack/decode/layer/transport/t_data_individual/con.py", "symbols": ["decode"]}, {"file": "knx_stack/decode/layer/application/a_property_value.py", "symbols": ["decode"]}]}
{"id": "C59", "title": "Malformed datagrams", "statement": "A KNXnet/IP datagram of any content makes decode_msg raise nothing but IndexError, KeyError or ValueError.", "quantifier": "every octet string and every state with tables", "why_tests_cant": "All octet strings of all lengths; false: a connect response that ends within its endpoint is a TypeError.", "anchors": [{"file": "knx_stack/decode/knxnet_ip/header.py", "symbols": ["decode"]}, {"file": "knx_stack/definition/knxnet_ip/msg.py", "symbols": ["Msg.HPAI"]}]}
{"id": "C60", "title": "Responses are read completely", "statement": "Search, connect, connection state and disconnect responses of any content are decoded to exactly the fields they carry, or to the exception determined by their length and status; they change nothing in the state but the channel as C44 says.", "quantifier": "every octet string as body, every state", "why_tests_cant": "All contents and lengths.", "anchors": [{"file": "knx_stack/decode/knxnet_ip/core/search/res.py", "symbols": ["decode"]}, {"file": "knx_stack/decode/knxnet_ip/core/connect/res.py", "symbols": ["decode"]}, {"file": "knx_stack/decode/knxnet_ip/core/connectionstate/res.py", "symbols": ["decode"]}, {"file": "knx_stack/decode/knxnet_ip/core/disconnect/res.py", "symbols": ["decode"]}]}
{"id": "C61", "title": "What the client answers", "statement": "The client answers an expected tunnelling request with one acknowledgement carrying its channel and counter, the request before the expected one with one acknowledgement of the expected counter, a decodable connect response with one connection state request for the new channel and its own endpoint, and nothing else with anything; a request whose telegram does not decode is not answered; without a transport nothing is sent.", "quantifier": "every datagram, every client state with a connection, every event sequence without transport", "why_tests_cant": "All datagrams of any content and all states.", "anchors": [{"file": "knx_stack/client/knxnet_ip.py", "symbols": ["Tunneling.datagram_received", "Tunneling.send"]}, {"file": "knx_stack/encode/knxnet_ip/tunneling/ack.py", "symbols": ["encode"]}, {"file": "knx_stack/decode/knxnet_ip/tunneling/req.py", "symbols": ["decode"]}]}
{"id": "C62", "title": "A server accepts each telegram at most once and in order", "statement": "Over a network that keeps order but may lose or repeat datagrams, the telegrams a standard tunnelling server accepts on a connection are a subsequence of the telegrams the client sent on it, and the two sequence counters never differ by more than one.", "quantifier": "every schedule of writes, arrivals, losses, repetitions and other datagrams between client and server", "why_tests_cant": "All interleavings of unbounded length of two programs and a network.", "anchors": [{"file": "knx_stack/client/knxnet_ip.py", "symbols": ["Tunneling.writer", "Tunneling.datagram_received"]}, {"file": "knx_stack/encode/knxnet_ip/tunneling/req.py", "symbols": ["encode"]}, {"file": "knx_stack/decode/knxnet_ip/tunneling/ack.py", "symbols": ["decode"]}]}
{"id": "C63", "title": "Telegrams that reach the server are accepted", "statement": "Every telegram the client writes whose request reaches a standard tunnelling server is accepted by it.", "quantifier": "every schedule and every sequence of messages", "why_tests_cant": "All schedules; false: after a lost acknowledgement, or when written before the previous acknowledgement, a telegram reuses the counter and is acknowledged but discarded.", "anchors": [{"file": "knx_stack/client/knxnet_ip.py", "symbols": ["Tunneling.writer"]}, {"file": "knx_stack/encode/knxnet_ip/tunneling/req.py", "symbols": ["encode"]}, {"file": "knx_stack/definition/knxnet_ip/state.py", "symbols": ["State"]}]}
{"id": "C64", "title": "Repetition recovers a lost acknowledgement", "statement": "Every request of the server that is the next or a repetition of the last is acknowledged with the counter it carries, so that a server that repeats an unacknowledged request goes on.", "quantifier": "every client state with a connection, every counter, any number of repetitions", "why_tests_cant": "All counters and unbounded repetition; false: no repetition is ever acknowledged with its counter.", "anchors": [{"file": "knx_stack/decode/knxnet_ip/tunneling/req.py", "symbols": ["decode"]}, {"file": "knx_stack/client/knxnet_ip.py", "symbols": ["Tunneling.datagram_received"]}]}
{"id": "C65", "title": "The USB client keeps reading", "statement": "The USB client logs what each report of the device is decoded to, in order and once, whatever pieces the text arrives in and whatever it writes meanwhile, and goes on reading until it is stopped or the daemon closes the connection.", "quantifier": "every sequence of reports, every segmentation of the text, every interleaving with writes, every daemon history", "why_tests_cant": "Unbounded sequences and all segmentations; false: the first report that does not decode, such as any connection control telegram on the bus, ends the read task for good.", "anchors": [{"file": "knx_stack/client/usbhid.py", "symbols": ["Client._knx_read", "Client._read"]}, {"file": "daemon/usbhid.c", "symbols": ["write_to_client", "main"]}]}
{"id": "C66", "title": "The USB client writes its messages and stops", "statement": "The USB client writes one line of upper-case hex digits for each of its messages, in order, whatever it receives meanwhile, and then stops, for good: nothing is written or logged afterwards.", "quantifier": "every list of messages, every interleaving with received text", "why_tests_cant": "All lists and interleavings; false: a message that cannot be encoded or displayed ends the write task, later messages are not written and the client never stops.", "anchors": [{"file": "knx_stack/client/usbhid.py", "symbols": ["Client._knx_write", "Client._write"]}]}
{"id": "C67", "title": "Discovery", "statement": "The discovery request is the search request with the given endpoint, and the response of every standard server is reported with the server's control endpoint and individual address, whatever was received before.", "quantifier": "every endpoint, individual address, medium, status and further content of the response, every history of the listener", "why_tests_cant": "All addresses and histories; false: the address reported is made of the KNX medium and device status octets.", "anchors": [{"file": "knx_stack/client/knxnet_ip_discovery.py", "symbols": ["Request.connection_made", "Listen.datagram_received"]}, {"file": "knx_stack/decode/knxnet_ip/core/search/res.py", "symbols": ["decode"]}, {"file": "knx_stack/encode/knxnet_ip/core/search/req.py", "symbols": ["encode"]}]}
{"id": "C68", "title": "Changing the own individual address", "statement": "A device whose address table was given new own individual addresses, at any points between other calls, behaves as one built with the last of them: the other calls end alike, every session of received messages decodes alike, every message to send encodes alike, and ASAP 0 stands for the new address.", "quantifier": "every initial table, every history of calls and address changes, every session of messages, every message to send", "why_tests_cant": "All histories; the doctest sets the address once and prints it. False: ASAP 0 keeps the first address.", "anchors": [{"file": "knx_stack/definition/layer/network/address_table.py", "symbols": ["AddressTable.individual_address", "AddressTable.get_tsap"]}, {"file": "knx_stack/definition/layer/transport/association_table.py", "symbols": ["AssociationTable.__init__", "AssociationTable.associate", "AssociationTable.disassociate"]}, {"file": "knx_stack/encode/layer/network/n_data_individual/req.py", "symbols": ["encode"]}, {"file": "knx_stack/decode/layer/transport/t_data_individual/ind.py", "symbols": ["decode"]}]}
{"id": "C69", "title": "USB daemon looks at nothing but the line it read", "statement": "While it handles input of a client, the daemon reads no memory but the characters just received, what it writes to the device depends on nothing but them and its packet, and nothing but pairs of hex digits changes the packet.", "quantifier": "every input text, every content of the memory behind it, every state of the daemon", "why_tests_cant": "The memory behind the buffer is not under a test's control. False: empty lines, the debug output, white space, single digits and signs.", "anchors": [{"file": "daemon/usbhid.c", "symbols": ["read_from_client"]}]}
{"id": "C70", "title": "Texts of addresses and of the address table", "statement": "The text of an individual address is its number in four upper-case hex digits; the text of a group address shows its number, its main and sub group and its main, middle and sub group, all denoting the address; the text of an address table numbers every address with a TSAP under which the table finds it; and different addresses and different tables have different texts.", "quantifier": "every address, every address table", "why_tests_cant": "65536 addresses and unboundedly many tables; doctests show a few.", "anchors": [{"file": "knx_stack/address.py", "symbols": ["Address.__repr__", "GroupAddress.__repr__"]}, {"file": "knx_stack/definition/layer/network/address_table.py", "symbols": ["AddressTable.__repr__", "AddressTable.get_address"]}]}
{"id": "C71", "title": "When encoding raises, and what", "statement": "encode_msg raises exactly when something the message needs is missing: a channel (AttributeError), an association or group object table (AttributeError), a type or association of the ASAP (KeyError), an entry of one of its addresses in the address table (TypeError), or a digit in property data (ValueError); the first missing thing decides. A device whose associations were made by successful calls that disassociate no shared address always encodes messages for associated, typed ASAPs.", "quantifier": "every message, every state, every history of table calls", "why_tests_cant": "An equivalence over all states and messages; tests only show some successes.", "anchors": [{"file": "knx_stack/__init__.py", "symbols": ["encode_msg"]}, {"file": "knx_stack/state.py", "symbols": ["State.get_tsaps", "State.get_addresses", "State.get_dpt"]}, {"file": "knx_stack/encode/layer/application/a_property_value_write/req.py", "symbols": ["encode"]}, {"file": "knx_stack/encode/knxnet_ip/tunneling/connection_header.py", "symbols": ["create"]}]}
{"id": "C72", "title": "Group requests from one USB client to another", "statement": "Group value writes and reads that a USB client writes to its daemon arrive at a USB client of another installation on the same bus, each once and in order, as exactly the indications of the objects that installation has on the address, with the number written, between whatever else is on the bus.", "quantifier": "all tables on both sides, all sequences of requests, all histories of both daemons, all other traffic, all pieces in which text is received", "why_tests_cant": "Two programs, two daemons and a bus, with arbitrary interleavings; no test runs more than the encoder or the decoder.", "anchors": [{"file": "knx_stack/client/usbhid.py", "symbols": ["Client._knx_write", "Client._knx_read"]}, {"file": "daemon/usbhid.c", "symbols": ["main", "read_from_client", "write_to_client"]}, {"file": "knx_stack/__init__.py", "symbols": ["encode_msg", "decode_msg"]}]}
{"id": "C73", "title": "Floats preserve order", "statement": "The 2 octet float preserves order: of two raw values the one with the smaller number 0.01*M*2^E is decoded to the smaller float, and of two numbers that are accepted the smaller one is not stored as the greater one; the same holds of numbers stored as 4 octet floats.", "quantifier": "all pairs of raw values, all pairs of numbers, whatever was stored before", "why_tests_cant": "Pairs of rationals; rounding at every boundary between exponents of the binary64, of the decimal rounding and of the stored float.", "anchors": [{"file": "knx_stack/datapointtypes.py", "symbols": ["DPT_Float_16.encode", "DPT_Float_16.decode", "DPT_Float_32.encode", "DPT_Float_32.decode"]}]}
{"id": "C74", "title": "The daemon survives its clients", "statement": "As long as the device is there, the daemon neither ends nor stops serving, whatever its clients do: connect as often as they like, close or reset their connections at any time, or not read what is sent to them.", "quantifier": "all interleavings of clients, device, kernel and daemon, all limits on descriptors and buffers, any number of clients", "why_tests_cant": "Depends on races between select, write and a client's closing, on exhausting descriptors and on filling socket buffers.", "anchors": [{"file": "daemon/usbhid.c", "symbols": ["main", "write_to_client", "read_from_client", "read_from_knx_cemi", "write_to_knx_cemi"]}]}
{"id": "C75", "title": "Runs of the daemon are possible histories", "statement": "Whatever clients, device and kernel do, what the daemon's loop does is a history of accepted connections, reports and inputs in which every new descriptor is fresh and positive, every input is of a connected client and at most 113 characters long, and every report is at most 56 octets long; the open connections are those of the history; every report and every connection is dealt with once and in order or still waits; and the texts written to clients are those the history sends, as far as the process has come.", "quantifier": "all interleavings of clients, device, kernel and daemon, all limits, all contents of uninitialised memory", "why_tests_cant": "An invariant over all interleavings of the environment with a loop that keeps a set of ready descriptors from an earlier moment.", "anchors": [{"file": "daemon/usbhid.c", "symbols": ["main"]}]}
{"id": "C76", "title": "The daemon honours its command line", "statement": "The daemon opens the device named last by -d or --dev-hidraw, /dev/hidraw1 if none is named, and serves at the port named by --port on the address named by --host; with -h or --help it prints its usage and does nothing else.", "quantifier": "all command lines, all device names, ports and hosts, all abbreviations and forms of options, any order", "why_tests_cant": "Unbounded argument lists; abbreviations, joined and separate values, permutation of words.", "anchors": [{"file": "daemon/usbhid.c", "symbols": ["main"]}]}
{"id": "C77", "title": "The daemon passes everything on", "statement": "What the daemon reads from a client is what the client sent, in order and without loss, but for what is still to be read; and every connected client is written every report the daemon reads from its device while the client is connected, once, in order, as one line of lower case hexadecimal digits.", "quantifier": "all runs of the daemon among any number of clients and its device, all interleavings, texts, reports and limits", "why_tests_cant": "Unbounded runs and interleavings; up to 64 clients and more with different life times.", "anchors": [{"file": "daemon/usbhid.c", "symbols": ["main", "read_from_client", "write_to_client"]}]}
{"id": "C78", "title": "The daemon leaves nobody waiting", "statement": "As long as the daemon neither ends nor is blocked by a client that does not read, a connection that is asked for, a report of the device, and text or the end of any client is dealt with after a bounded number of steps, however busy the others are; and when nothing new happens the daemon comes to rest with everything accepted, read and handed out.", "quantifier": "all runs of the daemon, all interleavings with clients and device, all descriptors that select can watch", "why_tests_cant": "Liveness over unbounded runs and all schedules.", "anchors": [{"file": "daemon/usbhid.c", "symbols": ["main"]}]}
{"id": "C79", "title": "The temperature of a climate report reads back as it was set", "statement": "Setting `temperatura` of a DPTInfoClimaReport to a number of degrees and reading it gives that number, cut to tenths of a degree. False for every negative number and from 51.2 on: the nine bits wrap, so that -5 reads as 46.2. False also for a number given as text, whose digits are repeated ten times: '21' reads as 21.7.", "quantifier": "all climate reports (all raw values), all floats, ints and texts assigned", "why_tests_cant": "The doctest reads one positive temperature; the wrap appears only for numbers a thermostat seldom reports, and truncation depends on the rounding of each of the 512 tenths in binary floating point.", "anchors": [{"file": "knx_stack/datapointtypes.py", "symbols": ["DPTInfoClimaReport", "temperatura"]}]}
{"id": "C80", "title": "Endpoint addresses given as text", "statement": "An endpoint address is accepted exactly when it is written as four decimal octets; the request then carries these octets, and decoding prints the same text. Every such text is read and printed back unchanged; but texts with a leading zero are read as octal numbers, fewer than four numbers and anything behind a blank are accepted, and a host name, to which the socket can be bound, makes the client raise OSError instead of sending its connect request.", "quantifier": "all texts, all 32 bit addresses, all ports, all client states", "why_tests_cant": "The set of texts is infinite; the doctests use two well-formed addresses.", "anchors": [{"file": "knx_stack/definition/knxnet_ip/msg.py", "symbols": ["HPAI"]}, {"file": "knx_stack/encode/knxnet_ip/core/connect/req.py", "symbols": ["encode"]}, {"file": "knx_stack/encode/knxnet_ip/core/search/req.py", "symbols": ["encode"]}, {"file": "knx_stack/encode/knxnet_ip/core/connectionstate/req.py", "symbols": ["encode"]}, {"file": "knx_stack/encode/knxnet_ip/core/disconnect/req.py", "symbols": ["encode"]}, {"file": "knx_stack/client/knxnet_ip.py", "symbols": ["connection_made"]}]}
{"id": "C81", "title": "The tunnelling program writes all its messages", "statement": "Started with a list of messages, the tunnelling program writes each of them once, in order, at least three seconds apart and not before it is connected, one tunnelling request per message, and then ends; connected at tc and continued at most d ms late it writes message i by tc + 1000 + d + i(3000 + d). False without a connect response, for which it waits for ever without repeating its request, and when writing a message raises (description, encoding, closed transport), which ends the program with the remaining messages unsent.", "quantifier": "all message lists, all states, all start times, all sequences of timed datagrams, transport losses and wake-ups, all delays", "why_tests_cant": "The behaviour is over real time, minutes for a few messages; no test runs writer at all, and the orders in which datagrams fall between the sleeps are unbounded.", "anchors": [{"file": "knx_stack/client/knxnet_ip.py", "symbols": ["writer", "start_tunneling", "Tunneling"]}]}
{"id": "C82", "title": "The tunnelling program keeps its connection and closes it", "statement": "While it writes, the tunnelling program sends a connection state request at least every two minutes (the time after which a server drops a connection), and sends a disconnect request when it is done. False: the only connection state request answers the connect response, so that from the 42nd message on it is over two minutes old, and no disconnect request is ever sent. Messages whose turn comes within two minutes of connecting are sent within them.", "quantifier": "all lists of requests, all states, all start times, all sequences of timed events with a single connect response", "why_tests_cant": "Needs more than two minutes of a running event loop with over forty messages and a server that enforces the heartbeat.", "anchors": [{"file": "knx_stack/client/knxnet_ip.py", "symbols": ["writer", "datagram_received"]}]}
{"id": "C83", "title": "The association table is a simple reference machine", "statement": "Whatever calls of associate and disassociate, and of add and remove on the shared address table, are made in whatever order and whether they raise or not, each call raises exactly what a reference machine says that knows only a bag of addresses, the associations, and both as they were at the last successful call; and afterwards the ASAPs listed for an address are those that were then associated with an address having the place the given address has now, an ASAP sends to its addresses if all are known and raises TypeError or KeyError otherwise. associate succeeds exactly if there is room for the addresses not known yet, disassociate exactly if every address is given at most as often as the ASAP and the address table have it.", "quantifier": "all address tables, all histories of the four kinds of calls, all addresses and ASAPs looked up", "why_tests_cant": "Histories are unbounded and the interesting ones mix raising and successful calls, direct changes of the address table and shared addresses; the doctests call each method once.", "anchors": [{"file": "knx_stack/definition/layer/transport/association_table.py", "symbols": ["AssociationTable", "associate", "disassociate", "get_asaps_from_address", "get_addresses", "get_tsaps", "_rebuild_tsap_asaps"]}, {"file": "knx_stack/definition/layer/network/address_table.py", "symbols": ["AddressTable", "add", "remove", "get_tsap"]}]}
{"id": "C84", "title": "The order of datapoint fields is without effect", "statement": "DPT_Factory.make given a dictionary of fields makes the datapoint whose number is the sum of the codes of the values, each cut to the width of its property and placed at its position, and raises exactly if a value is none for its property; in whatever order the fields come. Description_Factory.make, in whatever order python runs through its set of properties, raises the same or gives the same items, and the datapoint made of them again has the same description.", "quantifier": "all datapoint types, all dictionaries of fields with arbitrary values, all datapoints, all orders", "why_tests_cant": "The iteration order of a set of strings changes with every run of python, and the doctests give one or two fields in one order.", "anchors": [{"file": "knx_stack/datapointtypes.py", "symbols": ["DPT_Factory", "Description_Factory", "make"]}]}
{"id": "C85", "title": "Any iterable of addresses will do", "statement": "AssociationTable.associate and disassociate do with any iterable of addresses - a list, an iterator or generator, the list of group addresses the address table returns - what they do with a list of the elements it has when they are called.", "quantifier": "all association tables, all ASAPs, all three kinds of iterables with any elements", "why_tests_cant": "The parameter is typed Iterable but the tests only pass list literals; what an iterator or the live list does shows only in the second loop or after the first removal.", "anchors": [{"file": "knx_stack/definition/layer/transport/association_table.py", "symbols": ["AssociationTable", "associate", "disassociate"]}, {"file": "knx_stack/definition/layer/network/address_table.py", "symbols": ["AddressTable", "addresses", "remove"]}]}
{"id": "C86", "title": "Group object tables do not influence each other", "statement": "A GroupObjectTable has at all times the associations that were in the dict it was made of, changed by its own calls of associate and disassociate only, whatever is done with other tables and with the dicts they were made of.", "quantifier": "all histories of making dicts and tables, of calls on the tables and of changes of the dicts", "why_tests_cant": "The doctests make one table of one dict literal; whether a dict is kept or not depends on whether it is empty at that time.", "anchors": [{"file": "knx_stack/definition/layer/application/groupobject_table.py", "symbols": ["GroupObjectTable", "__init__", "associate", "disassociate"]}]}
{"id": "C87", "title": "Association tables with one address table do not influence each other", "statement": "Of two association tables made with the same address table, what one lists for a known address does not change by calls on the other.", "quantifier": "all address tables, all histories of calls on both tables, all addresses", "why_tests_cant": "Every test has one association table; which lookups go wrong depends on where in the sorted address table the other table's addresses come to lie.", "anchors": [{"file": "knx_stack/definition/layer/transport/association_table.py", "symbols": ["AssociationTable", "__init__", "associate", "get_asaps_from_address", "_rebuild_tsap_asaps"]}, {"file": "knx_stack/definition/layer/network/address_table.py", "symbols": ["AddressTable", "add", "get_tsap"]}]}
{"id": "C88", "title": "A stored address object can be changed", "statement": "Assigning another free_style, not in use yet, to the address object with which ASAPs were associated moves them to the new address: the lookups by the new address, and the addresses the ASAPs send to, are those the old address had, no other address is concerned, and later associations start from there.", "quantifier": "all association tables, all address objects, all old and new values, all later successful calls", "why_tests_cant": "No test changes an address after it was stored; whether an ASAP can still send depends on whether its list holds the very object or an equal one, which is the same to every lookup before the change.", "anchors": [{"file": "knx_stack/address.py", "symbols": ["Address", "GroupAddress", "__eq__"]}, {"file": "knx_stack/definition/layer/transport/association_table.py", "symbols": ["AssociationTable", "associate", "get_asaps_from_address", "_rebuild_tsap_asaps"]}, {"file": "knx_stack/definition/layer/network/address_table.py", "symbols": ["AddressTable", "add", "get_tsap"]}]}
{"id": "C89", "title": "What the log says about decoded messages", "statement": "The text written to the log for what decode_msg returned determines the messages: with the same names of ASAPs, two results have the same text only if they have the same messages in the same order with the same fields, it is one line, and formatting raises only for a datapoint with an undefined operating mode.", "quantifier": "all frames, all states, all lists of messages, all orders in which python iterates over the set of properties", "why_tests_cant": "The tests compare a few texts with literals; that no two of all results share a text, whatever numbers, octets and datapoints they hold, is not a comparison of single texts.", "anchors": [{"file": "knx_stack/datapointtypes.py", "symbols": ["DPT", "Description_Factory", "__repr__"]}, {"file": "knx_stack/definition/layer/application/a_group_value_write/ind.py", "symbols": ["Msg", "__repr__"]}, {"file": "knx_stack/definition/layer/application/a_property_value_write/con.py", "symbols": ["Msg", "__repr__"]}, {"file": "knx_stack/definition/layer/transport/association_table.py", "symbols": ["ASAP", "__repr__"]}, {"file": "knx_stack/definition/knxnet_ip/tunneling/req.py", "symbols": ["Msg", "__repr__"]}, {"file": "knx_stack/definition/knxnet_ip/core/connect/res.py", "symbols": ["Msg", "__repr__"]}]}
{"id": "C90", "title": "What the texts of the tables tell", "statement": "The text of a table says all there is to know about it: two group object tables, or two association tables with their address tables, have the same text exactly if they have the same entries in the same order, and two association tables with the same text send to the same addresses for every ASAP and deliver to the same ASAPs for every address.", "quantifier": "all tables, all histories of calls, all names of ASAPs, all classes of the address objects", "why_tests_cant": "The tests and the README compare four texts with literals; that no two of all tables share a text, and that equal texts mean equal behaviour after any history, cannot be seen from single texts.", "anchors": [{"file": "knx_stack/definition/layer/application/groupobject_table.py", "symbols": ["GroupObjectTable", "__repr__"]}, {"file": "knx_stack/definition/layer/transport/association_table.py", "symbols": ["AssociationTable", "ASAP", "__repr__", "get_asaps_from_address"]}, {"file": "knx_stack/definition/layer/network/address_table.py", "symbols": ["AddressTable", "__repr__"]}, {"file": "knx_stack/address.py", "symbols": ["GroupAddress", "__repr__"]}]}
{"id": "C91", "title": "What the log line of a message to be sent tells", "statement": "The text of a message to be sent, which the clients log, says which frame goes out: two messages have the same text exactly if they are of the same kind with the same fields, and two messages with the same text become the same frame in the same state.", "quantifier": "all messages to be sent, all datapoints and names of ASAPs, all states and tables", "why_tests_cant": "The README prints one such text; that no two of all messages with different fields share a text, and that equal texts mean equal frames, cannot be seen from single texts.", "anchors": [{"file": "knx_stack/definition/knxnet_ip/core/connect/req.py", "symbols": ["Msg", "__repr__"]}, {"file": "knx_stack/definition/knxnet_ip/core/search/req.py", "symbols": ["Msg", "__repr__"]}, {"file": "knx_stack/definition/knxnet_ip/tunneling/ack.py", "symbols": ["Msg", "__repr__"]}, {"file": "knx_stack/definition/layer/application/a_group_value_read/req.py", "symbols": ["Msg", "__repr__"]}, {"file": "knx_stack/definition/layer/application/a_group_value_write/req.py", "symbols": ["Msg", "__repr__"]}, {"file": "knx_stack/definition/layer/application/a_property_value_write/req.py", "symbols": ["Msg", "__repr__"]}, {"file": "knx_stack/__init__.py", "symbols": ["encode_msg"]}, {"file": "knx_stack/client/knxnet_ip.py", "symbols": ["writer"]}]}
{"id": "C92", "title": "What the datapoint factory refuses", "statement": "DPT_Factory.make raises for a field that the datapoint type does not have and for a number outside the range of its field; otherwise it makes a datapoint of the type asked for. What is raised depends only on the type and the first field that is refused: TypeError for a value of the wrong kind, AttributeError for an unknown name or an encoded value of a type without one, OverflowError, ValueError, InvalidOperation or Exception for numbers that cannot be converted. False for every unknown field (silently ignored: {'acton': 'on'} makes a switch that is off) and for every number out of range (taken modulo the range).", "quantifier": "all datapoint types, all sequences of fields with arbitrary texts, ints and floats (field names that are no methods or nested classes of the type)", "why_tests_cant": "The doctests give fields that exist, with values that fit; which of all values are refused, and with what exception, after any other fields, is not sampled.", "anchors": [{"file": "knx_stack/datapointtypes.py", "symbols": ["DPT_Factory", "make", "encode"]}]}
{"id": "C93", "title": "A datapoint of another type than the registered one", "statement": "Writing a datapoint that is not of the type registered for the ASAP is refused, so that what a receiver reads is what the datapoint reads. False for every other type: the class of the datapoint is not looked at, the frame is that of the same number in the registered type. Two datapoints of whatever types become the same frame exactly if their numbers agree in the bits that the registered type sends. For the registered type the receiver's description is that of the datapoint.", "quantifier": "all states, ASAPs with addresses, pairs of datapoint types, numbers", "why_tests_cant": "Every doctest writes the registered type; the cut bits and the changed meaning appear for each of the 17 x 16 pairs of different types and depend on all 32 bits of the value.", "anchors": [{"file": "knx_stack/encode/layer/application/a_group_value_write/encode.py", "symbols": ["al_encode"]}, {"file": "knx_stack/definition/layer/application/a_group_value_write/req.py", "symbols": ["Msg"]}, {"file": "knx_stack/datapointtypes.py", "symbols": ["DPT_Float_16", "DPT_Float_32", "decode"]}]}
{"id": "C94", "title": "Group requests over two tunnels", "statement": "Group value writes and reads that a tunnelling client writes arrive at a tunnelling client of another gateway on the same bus, each once and in the order written, as exactly the indications of the objects which that installation has on the address (nothing if it does not have the address), between whatever else comes. Whatever the networks lose, double or repeat, each arrives at most once, in order and unchanged; all arrive if every message is written after the acknowledgement of the one before and nothing is lost. With one lost acknowledgement the next request never arrives.", "quantifier": "all pairs of installations and tables, group requests, interleavings of client, network and gateway events with losses, duplicates and retransmissions, changes of frames on the bus, other traffic", "why_tests_cant": "Needs two clients, two gateways, two lossy networks and a bus; the duplicates and losses that matter depend on the interleaving and on both pairs of counters.", "anchors": [{"file": "knx_stack/client/knxnet_ip.py", "symbols": ["Tunneling.datagram_received", "Tunneling.writer"]}, {"file": "knx_stack/encode/knxnet_ip/tunneling/req.py", "symbols": ["encode"]}, {"file": "knx_stack/decode/knxnet_ip/tunneling/req.py", "symbols": ["decode"]}]}
{"id": "C95", "title": "Group requests between USB and tunnel", "statement": "The group requests of a tunnelling client arrive at a USB client of another installation on the bus each at most once and in the order written, and the group requests of a USB client whose daemon reads line by line arrive at a tunnelling client each once and in the order written; in both cases as exactly the indications of the objects which the receiving installation has on the address, between whatever else comes and can be read.", "quantifier": "all pairs of installations and tables, group requests, histories of clients, daemon and networks, changes of frames on the bus, other traffic", "why_tests_cant": "Needs two media, a daemon, a gateway and a bus at once; the statement is about all their interleavings.", "anchors": [{"file": "knx_stack/client/knxnet_ip.py", "symbols": ["Tunneling.datagram_received", "Tunneling.writer"]}, {"file": "knx_stack/client/usbhid.py", "symbols": ["Client._knx_read", "Client._knx_write"]}, {"file": "daemon/usbhid.c", "symbols": ["read_from_client", "main"]}]}
{"id": "C96", "title": "Which numbers and names the ASAPs have", "statement": "The numbers of ASAPs serve only to tell them apart and their names serve no purpose: if all ASAPs in the tables and in all later calls get other numbers and names that tell apart the same ASAPs, every history of calls (associating, disassociating, new addresses, encoding, decoding, counters) sends the same octets, raises the same exceptions and reports the same messages, but for the ASAPs of the group messages, which are the renumbered ones. Two installations that differ in names only send the same octets. Only get_free_asap_value looks at the numbers.", "quantifier": "all states and tables, all faithful renumberings, all histories of calls with arbitrary octets and requests", "why_tests_cant": "A relation between two runs for every renumbering and every history; a test compares single results for the numbers it chose.", "anchors": [{"file": "knx_stack/definition/layer/transport/association_table.py", "symbols": ["ASAP", "__eq__", "__hash__", "associate", "disassociate", "_rebuild_tsap_asaps", "get_tsaps"]}, {"file": "knx_stack/definition/layer/application/groupobject_table.py", "symbols": ["GroupObjectTable", "associate", "disassociate"]}, {"file": "knx_stack/state.py", "symbols": ["get_asaps_and_dpts", "get_dpt", "get_tsaps"]}, {"file": "knx_stack/__init__.py", "symbols": ["encode_msg", "decode_msg"]}]}
{"id": "C97", "title": "Datagrams of another channel", "statement": "A tunnelling request, an acknowledgement, a connection state response or a disconnect response with another channel id than the client's is without effect on the client. False: no decoder looks at the channel id. A request of another connection with the expected counter is delivered, acknowledged on the own channel and uses up the counter; an acknowledgement of another connection counts as the one waited for; the end of another connection takes away the own channel.", "quantifier": "every client, every channel, every datagram of a channel", "why_tests_cant": "All datagrams and all client states; tests of the project use one channel only.", "anchors": [{"file": "knx_stack/decode/knxnet_ip/tunneling/req.py", "symbols": ["decode"]}, {"file": "knx_stack/decode/knxnet_ip/tunneling/ack.py", "symbols": ["decode"]}, {"file": "knx_stack/decode/knxnet_ip/core/disconnect/res.py", "symbols": ["decode"]}, {"file": "knx_stack/decode/knxnet_ip/core/connectionstate/res.py", "symbols": ["decode"]}, {"file": "knx_stack/client/knxnet_ip.py", "symbols": ["Tunneling.datagram_received"]}]}
{"id": "C98", "title": "When the server ends the connection", "statement": "After a disconnect request of the server, a connection state response with an error, or a disconnect response, the client is not connected and sends no message until the next connect response. False of every client: it stays connected, does not answer the request, and goes on sending, after a disconnect response on channel 0.", "quantifier": "every connected client, every such datagram, every later history without loss of the transport, every message", "why_tests_cant": "All histories; the project has no test of a connection that ends.", "anchors": [{"file": "knx_stack/client/knxnet_ip.py", "symbols": ["Tunneling.datagram_received", "Tunneling.writer", "Tunneling.connected"]}, {"file": "knx_stack/decode/knxnet_ip/header.py", "symbols": ["decode"]}, {"file": "knx_stack/decode/knxnet_ip/core/disconnect/res.py", "symbols": ["decode"]}]}
{"id": "C99", "title": "What of a received telegram is without effect", "statement": "What decode_msg returns or raises for a telegram, and the state afterwards except for the remembered link frame, depend only on the message code, on whether the destination is a group, the destination, the transport and application control octets and the octets behind them, for a confirmation on its confirm flag, and for an indication with individual destination on its source. Frame format, repetition flag, kind of broadcast, priority, acknowledge flag, hop count, extended frame format, declared length, additional information, channel and (otherwise) the source are without effect.", "quantifier": "every pair of telegrams that agree in these parts, in any two frames of the medium, every state with or without tables", "why_tests_cant": "All pairs of telegrams and all states: a relation between two runs.", "anchors": [{"file": "knx_stack/definition/layer/link/ldata.py", "symbols": ["L_Data.make_from"]}, {"file": "knx_stack/decode/layer/link/l_data/ind.py", "symbols": ["decode"]}, {"file": "knx_stack/decode/layer/link/l_data/con.py", "symbols": ["decode"]}, {"file": "knx_stack/decode/layer/transport/t_data_group/ind.py", "symbols": ["decode"]}, {"file": "knx_stack/decode/layer/transport/t_data_individual/ind.py", "symbols": ["decode"]}]}
{"id": "C100", "title": "Octets behind the declared lengths", "statement": "Octets behind the length that a received frame declares (data length of a USB report, total length of a KNXnet/IP datagram, length octet of a telegram) are not part of what is decoded. Holds for USB reports; false for every tunnelling request and every telegram: the octets become the lowest octets of the value of each datapoint.", "quantifier": "every frame, every octets behind it, every state with tables", "why_tests_cant": "All frames and all trailing octets.", "anchors": [{"file": "knx_stack/decode/knxnet_ip/tunneling/req.py", "symbols": ["decode"]}, {"file": "knx_stack/definition/layer/link/ldata.py", "symbols": ["L_Data.make_from"]}, {"file": "knx_stack/decode/usb_hid/report_header/packet_info.py", "symbols": ["decode"]}]}
{"id": "C101", "title": "Endpoints of a tunnelling connection", "statement": "A client sends its connect request to the server it was made with, and after the connect response its tunnelling requests and acknowledgements go to the data endpoint which the server named in it and are accepted from there; 0.0.0.0:0 stands for the endpoint of the server itself. False for every server with a data endpoint of its own: every datagram goes to the endpoint of the constructor for ever, and what comes from the data endpoint is never heard. For other servers the client behaves as if datagrams from elsewhere did not exist.", "quantifier": "all servers and data endpoints, all client states, all sequences of events and senders", "why_tests_cant": "Senders, endpoints and histories are unbounded; the project has no test of the client.", "anchors": [{"file": "knx_stack/client/knxnet_ip.py", "symbols": ["Tunneling.send", "Tunneling.datagram_received", "start_tunneling"]}, {"file": "knx_stack/decode/knxnet_ip/core/connect/res.py", "symbols": ["decode"]}]}
{"id": "C102", "title": "The discovery program and its argument", "statement": "The discovery program, given an address, listens at this address on port 5544, joins the group 224.0.23.12 and sends the search request with this endpoint there, to port 3671. False: it takes its own name for the address, so its arguments make no difference, a name that is no host ends it with an exception, and with a name that does not begin with a digit it sends nothing at all.", "quantifier": "all program names, arguments and name resolutions", "why_tests_cant": "All command lines and resolvers; the program has no test.", "anchors": [{"file": "knx_stack/client/knxnet_ip_discovery.py", "symbols": ["send_discovery_request", "listen_discovery_responses", "Request.connection_made"]}, {"file": "knx_stack/definition/knxnet_ip/definitions.py", "symbols": ["DISCOVERY_MULTICAST_ADDR", "DISCOVERY_MULTICAST_PORT"]}]}
{"id": "C103", "title": "The tunnelling program over a prompt network", "statement": "Started with group requests that can be displayed, against a server of the standard, over a network that may double datagrams but neither loses nor reorders them and takes less than a second and a half for each, the tunnelling program connects, the server accepts the frames of the requests, each exactly once and in order, the program stops within a time that depends on the delays only, and a client of another installation decodes exactly what the requests are there. The bound is exact: with a second and a half the second of any two requests can be discarded by the server although nothing is lost.", "quantifier": "all tables, request lists, servers, channels, counters, delays below the bound, interleavings, doubled datagrams and other traffic", "why_tests_cant": "All schedules of a timed network; the project has no test of the program.", "anchors": [{"file": "knx_stack/client/knxnet_ip.py", "symbols": ["Tunneling.writer", "Tunneling.datagram_received", "Tunneling.connection_made", "Tunneling.send"]}, {"file": "knx_stack/decode/knxnet_ip/tunneling/ack.py", "symbols": ["decode"]}]}
{"id": "C104", "title": "The tunnelling program over a network that loses and reorders datagrams", "statement": "Under the conditions of C103, but with a network that may also reorder and lose datagrams, what the server has accepted is always some of the frames of the requests, each at most once and in order; when the program has stopped, at most as many are missing as datagrams were lost, and a client of another installation has decoded what the others are there; if nothing is lost while the connection is being opened, the program stops in time whatever is lost then. For any two requests the loss of one acknowledgement can cost the second request. Without losses the server has accepted all of them. If the connect request or its answer is lost, the program waits forever and writes nothing.", "quantifier": "all tables, request lists, servers, channels, counters, delays below the bound, interleavings, doubled, reordered and lost datagrams and other traffic", "why_tests_cant": "All schedules and all losses of a timed network.", "anchors": [{"file": "knx_stack/client/knxnet_ip.py", "symbols": ["Tunneling.writer", "Tunneling.datagram_received", "Tunneling.connection_made", "Tunneling.send"]}, {"file": "knx_stack/decode/knxnet_ip/tunneling/ack.py", "symbols": ["decode"]}]}
{"id": "C105", "title": "Status codes are those of the standard", "statement": "An answer of a server (connect, connection state or disconnect response, tunnelling acknowledgement) with a status code of the KNX standard is decoded to a message that names this status, no status is taken for another one, and an acknowledgement is encoded with the octet of its status. False: the code of a wrong sequence number is 4, but the library takes 3 for it when decoding and encoding, and 4 raises; so does a connect response that refuses the tunnelling layer, and an error in a disconnect response is not told.", "quantifier": "every datagram, status code and state", "why_tests_cant": "All datagrams with all 256 octets in the place of the status; the tests only contain answers without error.", "anchors": [{"file": "knx_stack/definition/knxnet_ip/definitions.py", "symbols": ["ErrorCodes", "ConnectResponseStatusCode", "ConnectionstateResponseStatusCode"]}, {"file": "knx_stack/decode/knxnet_ip/core/connect/res.py", "symbols": ["decode"]}, {"file": "knx_stack/decode/knxnet_ip/core/connectionstate/res.py", "symbols": ["decode"]}, {"file": "knx_stack/decode/knxnet_ip/core/disconnect/res.py", "symbols": ["decode"]}, {"file": "knx_stack/decode/knxnet_ip/tunneling/ack.py", "symbols": ["decode"]}, {"file": "knx_stack/encode/knxnet_ip/tunneling/ack.py", "symbols": ["encode"]}]}
{"id": "C106", "title": "Values travel in the form of the standard", "statement": "A write request for an ASAP with a datapoint type of the KNX standard becomes a telegram that carries the value in the form of the standard: up to six bits next to the service and no further octet, more bits in as many octets as the type has. A telegram in this form, from any device, is delivered to the ASAPs of its address as a datapoint that is described and decoded like the value. False for DPT_Control_Dimming, of which the four bits are always sent in an octet of their own, and for DPT_Brightness (7.013, two octets), of which one octet is sent and only the lower octet received.", "quantifier": "all tables, ASAPs, types, values, media, control octets, sources and additional information", "why_tests_cant": "All values of all types in all installations; the tests of the package contain no dimming or brightness telegram.", "anchors": [{"file": "knx_stack/datapointtypes.py", "symbols": ["DPT_Control_Dimming", "DPT_Brightness", "DPT_Switch"]}, {"file": "knx_stack/encode/layer/application/a_group_value_write/req.py", "symbols": ["encode"]}, {"file": "knx_stack/decode/layer/application/a_group_value_write/ind.py", "symbols": ["decode"]}]}
{"id": "C107", "title": "Ranges and invalid value of the two octet floats", "statement": "Encoding refuses exactly the numbers outside of the range of the type (9.001 from -273, 9.004 and 9.005 from 0, all up to 670760), no number is encoded as 0x7FFF, by which all types 9.xxx denote invalid data, and 0x7FFF is not decoded to a number. Only this holds: every number in the range is encoded, and not as 0x7FFF. Numbers outside are encoded too if they fit, those from 670760.98 on as 0x7FFF, and 0x7FFF is decoded to 670760.96.", "quantifier": "every datapoint of these types, every previous value and every number", "why_tests_cant": "All rational numbers; the tests use values in the middle of the range.", "anchors": [{"file": "knx_stack/datapointtypes.py", "symbols": ["DPT_Float_16", "DPT_Float_16.encode", "DPT_Float_16.decode", "DPT_Value_Temp", "DPT_Value_Lux", "DPT_Value_Wsp"]}]}
{"id": "C108", "title": "A refused request", "statement": "When the server refuses a request, which it tells by an error status in the acknowledgement, the requests that the client writes afterwards can still be accepted. False whenever the client hears of the refusal: it counts the request as accepted, goes on with the next counter, and the server, which still expects the refused one, accepts nothing on this connection any more, whatever the network loses, doubles and delivers and whatever else the client does. If the refusal is lost, client and server go on in step.", "quantifier": "every connection without anything under way, every request, status and sequence of later events", "why_tests_cant": "Unbounded sequences of events of client, network and server after a refusal.", "anchors": [{"file": "knx_stack/decode/knxnet_ip/tunneling/ack.py", "symbols": ["decode"]}, {"file": "knx_stack/client/knxnet_ip.py", "symbols": ["Tunneling.datagram_received", "Tunneling.writer"]}]}
{"id": "C109", "title": "Frames longer than a USB report", "statement": "A USB report has 64 octets, of which 61 are left for a part of a transfer; a longer frame travels in several reports, numbered and marked as first, middle and last. What the package sends is a report of the standard, and a frame is delivered in whatever reports it arrives. Group messages, property reads and property writes of at most 38 octets are sent as the standard's only report of their frame, and frames of at most 53 octets are received. False for longer ones: a longer property write becomes one report of more than 64 octets, which is no report of any frame, and each report of a frame that takes several is ignored.", "quantifier": "every message, state and frame, of any length", "why_tests_cant": "Unbounded lengths of data and frames; every frame beyond the limit, in all its reports.", "anchors": [{"file": "knx_stack/encode/usb_hid/report_header/packet_info.py", "symbols": ["encode"]}, {"file": "knx_stack/decode/usb_hid/report_header/packet_info.py", "symbols": ["decode"]}, {"file": "knx_stack/definition/usb_hid/report_header/packet_info.py", "symbols": ["PacketType"]}]}
{"id": "C110", "title": "Standard and extended frames", "statement": "A standard frame has room for 15 octets behind the transport control octet; a telegram says by its frame type whether it is a standard frame or an extended one, and is understood alike in both. What is delivered from a telegram depends neither on the frame type, nor on repetition, priority, acknowledgement, hop count or the format of an extended frame, nor on additional information, nor, for a group telegram, on the source. Group messages, property reads and property writes of at most 10 octets are sent as standard frames, which they fit. False for every property write of more than 10 octets: it is sent as a standard frame too.", "quantifier": "every message and state when sending; every pair of telegrams that say the same, in every state, when receiving", "why_tests_cant": "All telegrams that differ in the bits not concerned, and data of any length.", "anchors": [{"file": "knx_stack/definition/layer/link/ldata.py", "symbols": ["L_Data._make_default", "L_Data.make_from", "FrameTypeFlag"]}, {"file": "knx_stack/decode/cemi/msg_code.py", "symbols": ["decode"]}]}
{"id": "C111", "title": "Texts of octets and link layer data", "statement": "The text of an octet, a short or a long is 0x and hex digits from which make_from_str gives back its octets in the order in which they are sent, whatever number it was made from; the text of link layer data determines source, destination and type of the destination.", "quantifier": "all integers, all link layer data, with enumerations shown by name or by number", "why_tests_cant": "The documentation shows one text of each; that no two values share a text is not a comparison of single texts.", "anchors": [{"file": "knx_stack/msg.py", "symbols": ["Octect", "Short", "Long", "__repr__"]}, {"file": "knx_stack/definition/layer/link/ldata.py", "symbols": ["L_Data", "__repr__"]}]}
{"id": "C112", "title": "Clients of the daemon that send line by line", "statement": "A client that sends single lines, of up to 56 octets, and each only after the daemon has read all it sent before, has every line read as one piece, and for every piece read, from whatever client, the daemon writes one report to the device, in the order of reading, which begins with the octets of the line; however the other clients send. Without waiting this is not so: of two lines sent at once to a daemon at rest neither is written.", "quantifier": "all runs of the daemon, any number of other clients and what they send, all lines, contents of uninitialised memory and limits", "why_tests_cant": "Whether two lines are read in one piece depends on the scheduling of two processes.", "anchors": [{"file": "daemon/usbhid.c", "symbols": ["main", "read_from_client"]}, {"file": "knx_stack/client/usbhid.py", "symbols": ["Client._knx_write"]}]}
{"id": "C113", "title": "When decoding raises, and what", "statement": "decode_msg raises exactly when something is wrong with the octets or missing for them, and the first such thing decides: IndexError if they end before a field that is read (or, in a connect response, TypeError if the endpoint is incomplete), ValueError for an unknown status or for a value that cannot be displayed, KeyError for a group value at a registered address without association, AttributeError for a telegram when a table it needs is missing. Everything else is decoded or ignored without exception.", "quantifier": "every state, every sequence of octets, every history of successful calls on the tables", "why_tests_cant": "All octet sequences of all lengths, and all tables.", "anchors": [{"file": "knx_stack/__init__.py", "symbols": ["decode_msg"]}, {"file": "knx_stack/decode/usb_hid/report_header/report_identifier.py", "symbols": ["decode"]}, {"file": "knx_stack/decode/knxnet_ip/header.py", "symbols": ["decode"]}, {"file": "knx_stack/decode/cemi/msg_code.py", "symbols": ["decode"]}, {"file": "knx_stack/state.py", "symbols": ["get_tsap", "get_asaps", "get_asaps_and_dpts"]}]}
{"id": "C114", "title": "The wording of the log", "statement": "The text of a message is the pattern of its kind with its fields filled in: every kind of decoded message and every kind of message to be sent has one pattern, numbers are in decimal notation, individual addresses and octets in upper case hexadecimal notation of fixed width, IP addresses dotted, statuses by their numbers, an ASAP with its name in parentheses if it has a name, a datapoint as the name of its type and its fields as a dict. What decode_msg returned is logged as these texts in brackets, separated by commas, one for each message.", "quantifier": "all messages that decode_msg returns in any state and all messages that encode_msg takes, all fields, all orders in which python iterates over the set of properties", "why_tests_cant": "The tests compare the texts of a few messages with literals; for a status, a service or a number that no test uses the text is never looked at.", "anchors": [{"file": "knx_stack/datapointtypes.py", "symbols": ["DPT", "Description_Factory", "__repr__"]}, {"file": "knx_stack/definition/layer/application/a_group_value_write/ind.py", "symbols": ["Msg", "__repr__"]}, {"file": "knx_stack/definition/layer/application/a_property_value_write/con.py", "symbols": ["Msg", "__repr__"]}, {"file": "knx_stack/definition/layer/transport/association_table.py", "symbols": ["ASAP", "__repr__"]}, {"file": "knx_stack/definition/knxnet_ip/core/connect/req.py", "symbols": ["Msg", "__repr__"]}, {"file": "knx_stack/definition/knxnet_ip/core/connect/res.py", "symbols": ["Msg", "__repr__"]}, {"file": "knx_stack/definition/knxnet_ip/tunneling/req.py", "symbols": ["Msg", "__repr__"]}]}
{"id": "C115", "title": "The wording of tables, link layer data and state", "statement": "The text of an address table is a header with own address and size and one numbered line for each group address in hexadecimal, two level and three level notation, in the order of the TSAPs; that of a group object table one line with ASAP and type for each entry; that of an association table one line with ASAP and addresses for each entry, then the address table; that of link layer data its source, destination and type of destination; that of an octet, a short or a long the hexadecimal digits of the number its field holds; that of a state its medium, tables, link layer data, ASAP, APCI, address type and counters, None for what is missing.", "quantifier": "all tables, all link layer data, all states, all integers", "why_tests_cant": "The doctests print single tables; tables of any size with any names, addresses and numbers, and the text of a state, are not looked at.", "anchors": [{"file": "knx_stack/state.py", "symbols": ["State", "__repr__", "Medium"]}, {"file": "knx_stack/definition/layer/network/address_table.py", "symbols": ["AddressTable", "__repr__"]}, {"file": "knx_stack/definition/layer/transport/association_table.py", "symbols": ["AssociationTable", "__repr__"]}, {"file": "knx_stack/definition/layer/application/groupobject_table.py", "symbols": ["GroupObjectTable", "__repr__"]}, {"file": "knx_stack/definition/layer/link/ldata.py", "symbols": ["L_Data", "__repr__"]}, {"file": "knx_stack/msg.py", "symbols": ["Octect", "Short", "Long", "__repr__"]}, {"file": "knx_stack/address.py", "symbols": ["Address", "GroupAddress", "__repr__"]}]}
{"id": "C116", "title": "An ASAP given by its number", "statement": "encode_msg of a message whose ASAP is given as an int, as the documentation of the USB client does, gives the frame that it gives for the ASAP with that number; whatever it gives, the messages encoded and the frames decoded afterwards give what they would have given without it. (The first part is false for group value messages: they raise AttributeError if the number belongs to an ASAP of the tables; it holds for property messages.)", "quantifier": "all messages for the bus, all numbers, all names, all states", "why_tests_cant": "The only test with an int is the doctest of one property read on one state; no test gives an int to a group value message, where the outcome depends on the hashes of all keys of a table.", "anchors": [{"file": "knx_stack/client/usbhid.py", "symbols": ["Client"]}, {"file": "knx_stack/definition/layer/transport/association_table.py", "symbols": ["ASAP", "__eq__", "__hash__", "AssociationTable", "get_tsaps"]}, {"file": "knx_stack/state.py", "symbols": ["State", "get_tsaps", "get_dpt"]}, {"file": "knx_stack/encode/layer/application/a_group_value_read/req.py", "symbols": ["encode"]}, {"file": "knx_stack/encode/layer/application/a_group_value_write/encode.py", "symbols": ["al_encode"]}, {"file": "knx_stack/encode/layer/application/a_property_value_read/req.py", "symbols": ["encode"]}, {"file": "knx_stack/__init__.py", "symbols": ["encode_msg"]}]}
{"id": "C117", "title": "The log of the tunnelling client", "statement": "The tunnelling client logs one line for each connection made or lost and each error, one line \"read ...\" for each tunnelling request that is decoded, with its counter and status, and one line \"write ...\" for each message it takes up while connected, with its wording; nothing else, in the order of the events; logging has no effect on what it does. From the log one can tell what was received and what was sent. (The last sentence is false: the log shows no telegram, so that requests with any values are logged alike, and a message that cannot be encoded is logged as written although nothing is sent.)", "quantifier": "all clients, all sequences of events, all datagrams, all messages", "why_tests_cant": "No test looks at what a client logs; the lines depend on the history of the sequence counters, on whether decoding raises and on where in a callback an exception occurs.", "anchors": [{"file": "knx_stack/client/knxnet_ip.py", "symbols": ["Tunneling", "connection_made", "connection_lost", "error_received", "datagram_received", "writer"]}, {"file": "knx_stack/definition/knxnet_ip/tunneling/req.py", "symbols": ["Msg"]}]}
{"id": "C118", "title": "The log of the USB client", "statement": "The USB client logs one line \"read ...\" for each report it decoded, showing all its messages, and one line \"written ...\" for each message it sent, after sending it; in order and nothing else, whatever pieces the text arrives in; logging has no effect on what it does. (False for a message with a datapoint that has no description: it is sent without being logged, and nothing is written any more. It is the only one.)", "quantifier": "all clients, all sequences of events, all tables", "why_tests_cant": "No test looks at what a client logs; the claim is about all interleavings of the two tasks and about every place where formatting, encoding or decoding may raise.", "anchors": [{"file": "knx_stack/client/usbhid.py", "symbols": ["Client", "_knx_write", "_knx_read", "_write", "_read"]}, {"file": "knx_stack/datapointtypes.py", "symbols": ["DPT", "__repr__"]}]}
{"id": "C119", "title": "The log of the decoders", "statement": "decode_msg logs exactly one line for each data telegram it is given: \"discarded ...\", at level INFO, if its address is in none of the tables, and then nothing is decoded; else \"received ...\", at level DEBUG, with its source and destination, the value and the ASAPs of what was decoded; before it, on KNXnet/IP, a line with the sequence counter and whether it is a request or an acknowledgement; a datagram of an unknown service gives one line at level ERROR. Logging has no effect on what is decoded. (False in three ways: telegrams with a transport layer code other than that of data, and broadcasts, leave no line although nothing is decoded; telegrams for a known group with an unknown service are logged as received although nothing is decoded; and acknowledgements are logged with the text for requests.)", "quantifier": "all frames, all states, all texts of floats, all orders in which a set is shown", "why_tests_cant": "No test looks at the log, and the lines depend on the tables, on the sequence counter and on every octet of the frame; the claim is about all of them, including frames on which decoding raises after a line was logged.", "anchors": [{"file": "knx_stack/decode/layer/transport/t_data_group/ind.py", "symbols": ["decode"]}, {"file": "knx_stack/decode/layer/transport/t_data_group/con.py", "symbols": ["decode"]}, {"file": "knx_stack/decode/layer/transport/t_data_individual/ind.py", "symbols": ["decode"]}, {"file": "knx_stack/decode/layer/transport/t_data_individual/con.py", "symbols": ["decode"]}, {"file": "knx_stack/decode/layer/network/n_data_group/ind.py", "symbols": ["decode"]}, {"file": "knx_stack/decode/layer/link/l_data/ind.py", "symbols": ["decode"]}, {"file": "knx_stack/decode/knxnet_ip/header.py", "symbols": ["decode"]}, {"file": "knx_stack/decode/knxnet_ip/tunneling/req.py", "symbols": ["decode"]}, {"file": "knx_stack/decode/knxnet_ip/tunneling/ack.py", "symbols": ["decode"]}, {"file": "knx_stack/__init__.py", "symbols": ["decode_msg"]}]}
{"id": "C120", "title": "The log of the discovery", "statement": "The discovery listener logs, in order and with nothing else: one line for each connection made or lost and each error, and for each datagram a line with its octets, a line with its sender, the lines of the decoders, and, if decode_msg returns something that has a text, a line with it; logging has no effect on what is decoded. The response of a server is always logged with its endpoint, whatever was received before. The requester logs the same without decoding, and for each connection made the search request, exactly as it is sent; with an address that inet_aton does not take, it sends nothing. From either log one can tell the events exactly: two runs with the same log had the same events.", "quantifier": "all sequences of events, all datagrams, all texts of transports, exceptions and senders, all local addresses and ports, all states", "why_tests_cant": "No test runs the discovery or looks at its log; that the log identifies the events is a statement about all pairs of runs.", "anchors": [{"file": "knx_stack/client/knxnet_ip_discovery.py", "symbols": ["Request", "Listen", "connection_made", "connection_lost", "error_received", "datagram_received"]}, {"file": "knx_stack/decode/knxnet_ip/core/search/res.py", "symbols": ["decode"]}, {"file": "knx_stack/encode/knxnet_ip/core/search/req.py", "symbols": ["encode"]}]}
{"id": "C121", "title": "The log of the encoders", "statement": "encode_msg logs exactly one line about each tunnelling request (DEBUG) and each tunnelling acknowledgement (INFO) that it makes, with the sequence counter that is in the frame, and nothing about any other message or if it raises; logging has no effect on the frame or the state. On a KNXnet/IP state every request that can be encoded has its line, with the local counter. The lines logged for a tunnelling client are, in order, those about the tunnelling frames it has sent, and the counter in the line about an acknowledgement is that of the request acknowledged. The last sentence is false: a message encoded without a transport is logged but not sent, and the line about the acknowledgement of any request other than the expected one, such as a repeated one, has another counter.", "quantifier": "all messages, all states whose counters are octets, all clients and all sequences of events", "why_tests_cant": "No test looks at the log; that the lines are exactly those about the frames sent is a statement about all sequences of events.", "anchors": [{"file": "knx_stack/encode/knxnet_ip/tunneling/ack.py", "symbols": ["encode"]}, {"file": "knx_stack/encode/knxnet_ip/tunneling/req.py", "symbols": ["encode"]}, {"file": "knx_stack/encode/cemi/ldata/req.py", "symbols": ["encode"]}, {"file": "knx_stack/client/knxnet_ip.py", "symbols": ["Tunneling", "send", "datagram_received", "writer"]}]}
{"id": "C122", "title": "What the tunnelling program prints", "statement": "The tunnelling program prints, for each event, the lines of level INFO and above that the decoders, the client and the encoders log, in this order: for a telegram for others its octets and addresses; for a request its counter and status, then the counter of the acknowledgement; for a message written its wording, and for a request written nothing else; for connections made or lost and errors a line. Printing has no effect on the client. From what is printed one can tell which telegrams were received. The last sentence is true of the telegrams that are discarded and false of those that are delivered: any two requests with the same counter whose telegrams are for this device print the same.", "quantifier": "all sequences of events, all states on KNXnet/IP whose counters are octets, all ways to show floats, properties and address types; all pairs of telegrams", "why_tests_cant": "No test looks at what is printed; that delivered telegrams cannot be told apart is a statement about all pairs of telegrams.", "anchors": [{"file": "knx_stack/client/knxnet_ip.py", "symbols": ["Tunneling", "connection_made", "connection_lost", "error_received", "datagram_received", "writer"]}, {"file": "knx_stack/decode/layer/transport/t_data_group/ind.py", "symbols": ["decode"]}, {"file": "knx_stack/encode/knxnet_ip/tunneling/ack.py", "symbols": ["encode"]}, {"file": "knx_stack/encode/knxnet_ip/tunneling/req.py", "symbols": ["encode"]}]}
{"id": "C123", "title": "Ints given to a float type", "statement": "An int given to encode of a float type is taken as the double nearest to it, ties to even, and raises OverflowError, leaving the datapoint as it was, exactly from half a unit above the largest double on. A 4-octet float then stores the int, one of the two floats next to it, or an infinity exactly from 2^128 - 2^103 - 2^74 on. What it stores is the float nearest to the int. The last sentence is true for ints of less than 54 bits and false in general, because of the double rounding.", "quantifier": "all ints, all datapoints of the float types", "why_tests_cant": "Ints are unbounded; the double rounding shows only next to the middle of two floats, for ints of more than 53 bits.", "anchors": [{"file": "knx_stack/datapointtypes.py", "symbols": ["DPT_Float_16.encode", "DPT_Float_32.encode"]}]}
{"id": "C124", "title": "What the USB program prints", "statement": "The USB program prints, for each report it reads, the lines of all levels that the decoders log and then the messages it was decoded to; for each message it writes the lines that the encoders log and then the message; nothing else. Its own lines are of level ERROR, and no others are. Printing has no effect on the client. Every telegram read is printed with its octets and addresses. The last sentence is true of all telegrams but those that are connection oriented, tagged or broadcasts, for which the program prints only that nothing was read, and those that cannot be decoded.", "quantifier": "all reports and messages in all states, all sequences of events on USB, all telegrams, all ways to show floats, properties and address types", "why_tests_cant": "No test looks at what is printed; that nothing of a dropped telegram is printed is a statement about all of them.", "anchors": [{"file": "knx_stack/client/usbhid.py", "symbols": ["Client", "_knx_read", "_knx_write"]}, {"file": "knx_stack/decode/layer/transport/t_data_group/ind.py", "symbols": ["decode"]}]}
{"id": "C125", "title": "Numbers that a 2-octet float has exactly", "statement": "A number that is M * 2^E hundredths, for a mantissa M of 12 bits and an exponent E of 4 (not both extreme), is written into a 2-octet float without loss: what is read back is the double it was given as. This is true of all ints among them, and no other int is ever read. Of the others it is true only up to rounding: every number within 1/100000 of the hundredths is written as them and read back as one and the same double, which is within one part in 2^52 of the hundredths but need not be the nearest: 0.35 can be written and is never read.", "quantifier": "all mantissas, exponents, numbers near the hundredths, datapoints of the 2-octet float types and their previous raw values", "why_tests_cant": "Whether reading gives back what was written depends on two roundings of 0.01 for each of 65536 raw values and on all doubles near them; tests compare a few with a tolerance.", "anchors": [{"file": "knx_stack/datapointtypes.py", "symbols": ["DPT_Float_16.encode", "DPT_Float_16.decode"]}]}
{"id": "C126", "title": "Each number has one form as a 2-octet float", "statement": "What is written into a 2-octet float, as an int or as a float, has the least exponent for which the mantissa is below 2048: the exponent is 0 or the mantissa is from 1024 to 2047 in magnitude. Reading a raw value and writing it into any datapoint of the type restores the octets exactly if they are of this form and the mantissa is not -2048; otherwise other octets are sent for the same number. So what was written, unless its mantissa is -2048, is read and written again without a change.", "quantifier": "all numbers, all raw values but 0xF800, all datapoints of the 2-octet float types and their previous raw values", "why_tests_cant": "There are unboundedly many numbers, and the octets restored depend on roundings of 0.01 for each of the 65536 raw values and on what the datapoint held before.", "anchors": [{"file": "knx_stack/datapointtypes.py", "symbols": ["DPT_Float_16.encode", "DPT_Float_16.decode"]}]}
{"id": "C127", "title": "Numbers that a 4-octet float has exactly", "statement": "A number with 24 binary digits, none worth less than 2^-149, and of a magnitude below 2^128, is read back from a 4-octet float as it was written, be it given as a float or as an int, and no other number is ever read. Different octets are read as different numbers, infinities or zeros, unless both are not a number.", "quantifier": "all numbers and ints, all datapoints of the 4-octet float types and their previous raw values, all pairs of raw values", "why_tests_cant": "There are 2^32 raw values and unboundedly many numbers; subnormal numbers, the ends of the range and ints that first become doubles are easily left out.", "anchors": [{"file": "knx_stack/datapointtypes.py", "symbols": ["DPT_Float_32.encode", "DPT_Float_32.decode"]}]}
{"id": "C128", "title": "The number written is the number read elsewhere", "statement": "If a client writes a number, in a datapoint of a float type, to an object of a float type of that size, and the telegram comes to another client, every object there that the address leads to is told, and each of a float type of that size reads the very number that the sender's datapoint reads: over two tunnels when nothing else is under way, over two USB interfaces whose daemons read line by line, and between the two, whatever other telegrams arrive in between. An int that is M * 2^E hundredths can be written so and arrives as that int.", "quantifier": "all numbers, datapoints, tables of the two clients, states of the network, other traffic, histories of the daemons", "why_tests_cant": "The claim spans encoding, two clients, gateways or daemons and decoding; tests cover one layer at a time with a few values.", "anchors": [{"file": "knx_stack/datapointtypes.py", "symbols": ["DPT_Float_16.encode", "DPT_Float_16.decode", "DPT_Float_32.decode"]}, {"file": "knx_stack/client/usbhid.py", "symbols": ["Client._knx_write", "Client._knx_read"]}, {"file": "daemon/usbhid.c", "symbols": ["main", "read_from_client", "write_to_client"]}, {"file": "knx_stack/__init__.py", "symbols": ["encode_msg", "decode_msg"]}, {"file": "knx_stack/client/knxnet_ip.py", "symbols": ["Tunneling.datagram_received", "Tunneling.writer"]}, {"file": "knx_stack/encode/knxnet_ip/tunneling/req.py", "symbols": ["encode"]}, {"file": "knx_stack/decode/knxnet_ip/tunneling/req.py", "symbols": ["decode"]}]}
