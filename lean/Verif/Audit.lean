import Verif.Props.AddressTables
import Verif.Props.Addresses
import Verif.Props.Alike
import Verif.Props.AssocTables
import Verif.Props.Canonical
import Verif.Props.Channel
import Verif.Props.Client
import Verif.Props.ClientLog
import Verif.Props.ClientOutput
import Verif.Props.Complaint
import Verif.Props.Daemon
import Verif.Props.DaemonKilled
import Verif.Props.DaemonMain
import Verif.Props.DaemonPaced
import Verif.Props.DaemonProgress
import Verif.Props.DaemonReads
import Verif.Props.DaemonStream
import Verif.Props.DaemonSystem
import Verif.Props.Datapoints
import Verif.Props.DecodeComplaint
import Verif.Props.DecodeLog
import Verif.Props.Decoder
import Verif.Props.Discovery
import Verif.Props.DiscoveryLog
import Verif.Props.DiscoveryMain
import Verif.Props.DptNumbers
import Verif.Props.EncodeLog
import Verif.Props.Encoder
import Verif.Props.Encoding
import Verif.Props.EndToEnd
import Verif.Props.Exact
import Verif.Props.Exact32
import Verif.Props.Factory
import Verif.Props.FieldOrder
import Verif.Props.Float16
import Verif.Props.Float32
import Verif.Props.FrameTypes
import Verif.Props.Gateway
import Verif.Props.GroupObjects
import Verif.Props.Hundredths
import Verif.Props.Ieee
import Verif.Props.Individual
import Verif.Props.IntEncode
import Verif.Props.IpText
import Verif.Props.Iterables
import Verif.Props.Lengths
import Verif.Props.LogTexts
import Verif.Props.LossyNet
import Verif.Props.MsgTexts
import Verif.Props.NumberAsap
import Verif.Props.Numbers
import Verif.Props.Order
import Verif.Props.OtherType
import Verif.Props.PropertyServices
import Verif.Props.Range16
import Verif.Props.Readdress
import Verif.Props.Recovery
import Verif.Props.Refusal
import Verif.Props.Relabel
import Verif.Props.Remote
import Verif.Props.Rename
import Verif.Props.Replies
import Verif.Props.RequestTexts
import Verif.Props.Responses
import Verif.Props.SharedTables
import Verif.Props.StartStop
import Verif.Props.StateText
import Verif.Props.StatusCodes
import Verif.Props.TableMachine
import Verif.Props.TableTexts
import Verif.Props.Telegrams
import Verif.Props.Temperature
import Verif.Props.Text
import Verif.Props.Texts
import Verif.Props.TimedNet
import Verif.Props.TunnelProgram
import Verif.Props.Tunnelling
import Verif.Props.Tunnels
import Verif.Props.TwoDevices
import Verif.Props.UnitTexts
import Verif.Props.UsbClient
import Verif.Props.UsbLog
import Verif.Props.UsbOutput
import Verif.Props.UsbPackets
import Verif.Props.ValueForm

/-! # Axioms each property theorem depends on (printed by the build; written by tools/manifest.py) -/

#print axioms Knx.c01_render_parse
#print axioms Knx.c01_lower_parse
#print axioms Knx.c01_parse_render
#print axioms Knx.c02_error_iff
#print axioms Knx.c02_octets
#print axioms Knx.c02_refuted
#print axioms Knx.c02_ascii_partial
#print axioms Knx.c03_octect
#print axioms Knx.c03_short
#print axioms Knx.c03_long
#print axioms Knx.c03_short_restore
#print axioms Knx.c03_long_restore
#print axioms Knx.c03_short_emit
#print axioms Knx.c03_long_emit
#print axioms Knx.c03_errors
#print axioms Knx.c04_build
#print axioms Knx.c04_read
#print axioms Knx.c04_three
#print axioms Knx.c04_two
#print axioms Knx.c04_rebuild
#print axioms Knx.c04_eq
#print axioms Knx.c05_sorted
#print axioms Knx.c05_resolve
#print axioms Knx.c05_faithful
#print axioms Knx.c05_getAddress
#print axioms Knx.c05_content
#print axioms Knx.c06_capacity
#print axioms Knx.c06_add_full_partial
#print axioms Knx.c06_refuted
#print axioms Knx.c06_ignored_refuted
#print axioms Knx.c06_add_room
#print axioms Knx.c06_assoc_capacity
#print axioms Knx.c07_assoc_partial
#print axioms Knx.c07_add_partial
#print axioms Knx.c07_add_duplicates
#print axioms Knx.c08_partial
#print axioms Knx.c08_exclusive_partial
#print axioms Knx.c08_shared_refuted
#print axioms Knx.c08_exact
#print axioms Knx.c08_pooled_refuted
#print axioms Knx.c09_associate_partial
#print axioms Knx.c09_history_partial
#print axioms Knx.c09_reachable
#print axioms Knx.c09_refuted
#print axioms Knx.c09_shared_refuted
#print axioms Knx.c10_partial
#print axioms Knx.c10_history_partial
#print axioms Knx.c10_refuted
#print axioms Knx.c10_shared_refuted
#print axioms Knx.c11_partial
#print axioms Knx.c11_full_partial
#print axioms Knx.c11_refuted
#print axioms Knx.c11_shift_refuted
#print axioms Knx.c12_partial
#print axioms Knx.c12_ascending_partial
#print axioms Knx.c12_refuted
#print axioms Knx.c13_tsap
#print axioms Knx.c14_map
#print axioms Knx.c14_disassociate
#print axioms Knx.c15_layout
#print axioms Knx.c15_bits
#print axioms Knx.c15_props
#print axioms Knx.c15_number
#print axioms Knx.c15_width
#print axioms Knx.c16_write
#print axioms Knx.c16_unknown
#print axioms Knx.c16_read
#print axioms Knx.c16_undefined
#print axioms Knx.c17_rebuild_partial
#print axioms Knx.c17_refuted
#print axioms Knx.c17_name
#print axioms Knx.c18_decode
#print axioms Knx.c18_absent
#print axioms Knx.c19_stable
#print axioms Knx.c19_exception
#print axioms Knx.c20_partial
#print axioms Knx.c20_refuted
#print axioms Knx.c20_negzero_refuted
#print axioms Knx.c21_accepts
#print axioms Knx.c21_rejects
#print axioms Knx.c21_exact
#print axioms Knx.c21_untouched
#print axioms Knx.c22_roundtrip
#print axioms Knx.c22_nearest
#print axioms Knx.c22_error
#print axioms Knx.c22_overflow
#print axioms Knx.c22_special
#print axioms Knx.c23_partial
#print axioms Knx.c23_history
#print axioms Knx.c23_refuted
#print axioms Knx.c23_exact
#print axioms Knx.c24_partial
#print axioms Knx.c24_refuted
#print axioms Knx.c24_exact
#print axioms Knx.c25_partial
#print axioms Knx.c25_refuted
#print axioms Knx.c25_exact
#print axioms Knx.c26_write_partial
#print axioms Knx.c26_read_partial
#print axioms Knx.c26_succeeds
#print axioms Knx.c26_history
#print axioms Knx.c26_refuted
#print axioms Knx.c26_lost_refuted
#print axioms Knx.c26_entered
#print axioms Knx.c27_partial
#print axioms Knx.c27_long_refuted
#print axioms Knx.c27_refuted
#print axioms Knx.c28_write_partial
#print axioms Knx.c28_write_succeeds
#print axioms Knx.c28_read_partial
#print axioms Knx.c28_read_succeeds
#print axioms Knx.c28_indication_partial
#print axioms Knx.c28_refuted
#print axioms Knx.c28_read_refuted
#print axioms Knx.c28_misdirected_refuted
#print axioms Knx.c29_fanout_partial
#print axioms Knx.c29_other
#print axioms Knx.c29_history_partial
#print axioms Knx.c29_refuted
#print axioms Knx.c30_foreign
#print axioms Knx.c31_exceptions
#print axioms Knx.c31_partial
#print axioms Knx.c31_refuted
#print axioms Knx.c31_unassociated
#print axioms Knx.c32_usb_partial
#print axioms Knx.c32_ip_partial
#print axioms Knx.c32_none_refuted
#print axioms Knx.c32_tuple_refuted
#print axioms Knx.c32_numbered_refuted
#print axioms Knx.c32_ack_refuted
#print axioms Knx.c33_independent
#print axioms Knx.c33_sessions
#print axioms Knx.c33_tables
#print axioms Knx.c34_padding
#print axioms Knx.c34_body
#print axioms Knx.c35_info
#print axioms Knx.c36_usb
#print axioms Knx.c36_usb_short
#print axioms Knx.c36_usb_prefix
#print axioms Knx.c36_ip
#print axioms Knx.c37_determined
#print axioms Knx.c37_frame
#print axioms Knx.c37_repeatable
#print axioms Knx.c37_error
#print axioms Knx.c38_kind_partial
#print axioms Knx.c38_set_partial
#print axioms Knx.c38_set_octet
#print axioms Knx.c38_connect_refuted
#print axioms Knx.c38_none_refuted
#print axioms Knx.c39_octets
#print axioms Knx.c40_other
#print axioms Knx.c40_expected
#print axioms Knx.c41_ack
#print axioms Knx.c42_partial
#print axioms Knx.c42_refuted
#print axioms Knx.c42_wrap_refuted
#print axioms Knx.c43_local
#print axioms Knx.c43_duplicates
#print axioms Knx.c44_channel
#print axioms Knx.c44_requests
#print axioms Knx.c44_others
#print axioms Knx.c44_start
#print axioms Knx.c45_connect
#print axioms Knx.c45_channel
#print axioms Knx.c45_search
#print axioms Knx.c45_response
#print axioms Knx.c46_partial
#print axioms Knx.c46_refuted
#print axioms Knx.c46_stuck_refuted
#print axioms Knx.c47_partial
#print axioms Knx.c47_refuted
#print axioms Knx.c47_exact
#print axioms Knx.c48_partial
#print axioms Knx.c48_refuted
#print axioms Knx.c48_local_refuted
#print axioms Knx.c49_hex
#print axioms Knx.c49_received
#print axioms Knx.c49_written
#print axioms Knx.c49_made
#print axioms Knx.c49_wire
#print axioms Knx.c49_sends
#print axioms Knx.c50_partial
#print axioms Knx.c50_only
#print axioms Knx.c50_refuted
#print axioms Knx.c50_empty_refuted
#print axioms Knx.c50_long_refuted
#print axioms Knx.c51_broadcast
#print axioms Knx.c51_only
#print axioms Knx.c51_table
#print axioms Knx.c51_all
#print axioms Knx.c52_features
#print axioms Knx.c53_bounds
#print axioms Knx.c54_out_partial
#print axioms Knx.c54_long_refuted
#print axioms Knx.c54_in
#print axioms Knx.c55_write
#print axioms Knx.c55_read
#print axioms Knx.c55_elsewhere
#print axioms Knx.c55_description
#print axioms Knx.c56_connect
#print axioms Knx.c56_disconnect
#print axioms Knx.c57_partial
#print axioms Knx.c57_raises
#print axioms Knx.c57_refuted
#print axioms Knx.c57_own_refuted
#print axioms Knx.c58_delivered
#print axioms Knx.c58_short
#print axioms Knx.c58_ignored
#print axioms Knx.c59_partial
#print axioms Knx.c59_refuted
#print axioms Knx.c60_search
#print axioms Knx.c60_connect
#print axioms Knx.c60_state
#print axioms Knx.c60_disconnect
#print axioms Knx.c61_request
#print axioms Knx.c61_connect
#print axioms Knx.c61_other
#print axioms Knx.c61_lost
#print axioms Knx.c61_ack
#print axioms Knx.c62_once
#print axioms Knx.c63_partial
#print axioms Knx.c63_lost_request
#print axioms Knx.c63_refuted
#print axioms Knx.c63_early_refuted
#print axioms Knx.c64_partial
#print axioms Knx.c64_refuted
#print axioms Knx.c65_partial
#print axioms Knx.c65_daemon
#print axioms Knx.c65_ends
#print axioms Knx.c65_refuted
#print axioms Knx.c65_closed
#print axioms Knx.c66_partial
#print axioms Knx.c66_refuted
#print axioms Knx.c66_format_refuted
#print axioms Knx.c66_stops
#print axioms Knx.c67_request
#print axioms Knx.c67_partial
#print axioms Knx.c67_refuted
#print axioms Knx.c68_partial
#print axioms Knx.c68_refuted
#print axioms Knx.c69_partial
#print axioms Knx.c69_content_partial
#print axioms Knx.c69_garbled_partial
#print axioms Knx.c69_empty_refuted
#print axioms Knx.c69_print_refuted
#print axioms Knx.c69_full_refuted
#print axioms Knx.c69_leak_refuted
#print axioms Knx.c69_digit_refuted
#print axioms Knx.c69_sign_refuted
#print axioms Knx.c69_exact
#print axioms Knx.c70_address
#print axioms Knx.c70_group
#print axioms Knx.c70_group_unique
#print axioms Knx.c70_components
#print axioms Knx.c70_table
#print axioms Knx.c70_table_inj
#print axioms Knx.c71
#print axioms Knx.c71_history
#print axioms Knx.c72_partial
#print axioms Knx.c72_refuted
#print axioms Knx.c73_decode
#print axioms Knx.c73_encode_partial
#print axioms Knx.c73_refuted
#print axioms Knx.c73_float32
#print axioms Knx.c74_stops
#print axioms Knx.c74_killed
#print axioms Knx.c74_partial
#print axioms Knx.c74_closed_refuted
#print axioms Knx.c74_connections_refuted
#print axioms Knx.c74_blocked_refuted
#print axioms Knx.c75_history
#print axioms Knx.c76_partial
#print axioms Knx.c76_port_refuted
#print axioms Knx.c76_short_refuted
#print axioms Knx.c76_joined_refuted
#print axioms Knx.c77_input
#print axioms Knx.c77_reports_partial
#print axioms Knx.c77_table_refuted
#print axioms Knx.c78_rest
#print axioms Knx.c78_fair
#print axioms Knx.c79_range
#print axioms Knx.c79_copy_partial
#print axioms Knx.c79_whole_partial
#print axioms Knx.c79_partial
#print axioms Knx.c79_negative_refuted
#print axioms Knx.c79_large_refuted
#print axioms Knx.c79_text_refuted
#print axioms Knx.c79_text_raises
#print axioms Knx.c79_raises
#print axioms Knx.c80_quad
#print axioms Knx.c80_print
#print axioms Knx.c80_texts
#print axioms Knx.c80_connect
#print axioms Knx.c80_requests
#print axioms Knx.c80_refused
#print axioms Knx.c80_zero_refuted
#print axioms Knx.c80_short_refuted
#print axioms Knx.c80_trailing_refuted
#print axioms Knx.c80_host_refuted
#print axioms Knx.c81_partial
#print axioms Knx.c81_order
#print axioms Knx.c81_datagrams
#print axioms Knx.c81_pace
#print axioms Knx.c81_failed
#print axioms Knx.c81_silent_refuted
#print axioms Knx.c81_spoilt_refuted
#print axioms Knx.c82_partial
#print axioms Knx.c82_refuted
#print axioms Knx.c82_close_refuted
#print axioms Knx.c83_machine
#print axioms Knx.c83_constructor
#print axioms Knx.c83_associate
#print axioms Knx.c83_disassociate
#print axioms Knx.c84_factory_partial
#print axioms Knx.c84_order_partial
#print axioms Knx.c84_describe
#print axioms Knx.c84_rebuild_partial
#print axioms Knx.c84_exception_refuted
#print axioms Knx.c84_value_refuted
#print axioms Knx.c85_partial
#print axioms Knx.c85_iterator_refuted
#print axioms Knx.c85_live
#print axioms Knx.c85_live_refuted
#print axioms Knx.c86_partial
#print axioms Knx.c86_shared_refuted
#print axioms Knx.c87_machine
#print axioms Knx.c87_partial
#print axioms Knx.c87_refuted
#print axioms Knx.c88_partial
#print axioms Knx.c88_calls_partial
#print axioms Knx.c88_refuted
#print axioms Knx.c89_datapoint
#print axioms Knx.c89_messages
#print axioms Knx.c89_raises
#print axioms Knx.c89_format
#print axioms Knx.c89_decoded
#print axioms Knx.c89_log
#print axioms Knx.c89_line_partial
#print axioms Knx.c89_hidden_refuted
#print axioms Knx.c89_forged_refuted
#print axioms Knx.c90_objects
#print axioms Knx.c90_associations
#print axioms Knx.c90_same_partial
#print axioms Knx.c90_history_partial
#print axioms Knx.c90_stale_refuted
#print axioms Knx.c90_forged_refuted
#print axioms Knx.c91_same
#print axioms Knx.c91_raises
#print axioms Knx.c91_frame_partial
#print axioms Knx.c91_fields
#print axioms Knx.c91_number
#print axioms Knx.c91_hidden_refuted
#print axioms Knx.c91_float_refuted
#print axioms Knx.c92_raises
#print axioms Knx.c92_makes
#print axioms Knx.c92_types
#print axioms Knx.c92_double
#print axioms Knx.c92_unknown_refuted
#print axioms Knx.c92_range_refuted
#print axioms Knx.c92_value_refuted
#print axioms Knx.c93_refuted
#print axioms Knx.c93_frames
#print axioms Knx.c93_wide_refuted
#print axioms Knx.c93_float_refuted
#print axioms Knx.c93_partial
#print axioms Knx.c94_once
#print axioms Knx.c94_partial
#print axioms Knx.c94_refuted
#print axioms Knx.c95_to_usb
#print axioms Knx.c95_from_usb
#print axioms Knx.c96_numbers
#print axioms Knx.c96_names
#print axioms Knx.c96_built
#print axioms Knx.c97_refuted
#print axioms Knx.c97_taken_refuted
#print axioms Knx.c97_ack_refuted
#print axioms Knx.c97_closed_refuted
#print axioms Knx.c97_claim_refuted
#print axioms Knx.c97_partial
#print axioms Knx.c98_refuted
#print axioms Knx.c98_forever_refuted
#print axioms Knx.c98_closed_partial
#print axioms Knx.c99_alike
#print axioms Knx.c100_total_refuted
#print axioms Knx.c100_length_refuted
#print axioms Knx.c100_partial
#print axioms Knx.c101_refuted
#print axioms Knx.c101_written_refuted
#print axioms Knx.c101_deaf_refuted
#print axioms Knx.c101_partial
#print axioms Knx.c101_connect
#print axioms Knx.c102_refuted
#print axioms Knx.c102_argument_refuted
#print axioms Knx.c102_unknown_refuted
#print axioms Knx.c102_partial
#print axioms Knx.c103
#print axioms Knx.c103_delivered
#print axioms Knx.c103_slow
#print axioms Knx.c104
#print axioms Knx.c103_reordered
#print axioms Knx.c104_opened
#print axioms Knx.c104_silent
#print axioms Knx.c104_delivered
#print axioms Knx.c104_tight
#print axioms Knx.c105_partial
#print axioms Knx.c105_refuted
#print axioms Knx.c105_misread
#print axioms Knx.c105_encode
#print axioms Knx.c106_partial
#print axioms Knx.c106_refuted
#print axioms Knx.c106_receive_partial
#print axioms Knx.c106_truncated
#print axioms Knx.c107_partial
#print axioms Knx.c107_refuted
#print axioms Knx.c107_marker_refuted
#print axioms Knx.c107_invalid_refuted
#print axioms Knx.c108_partial
#print axioms Knx.c108_refuted
#print axioms Knx.c109_partial
#print axioms Knx.c109_refuted
#print axioms Knx.c109_receive_partial
#print axioms Knx.c109_receive_refuted
#print axioms Knx.c110_partial
#print axioms Knx.c110_refuted
#print axioms Knx.c110_receive
#print axioms Knx.c111_units
#print axioms Knx.c111_ldata
#print axioms Knx.c112_paced
#print axioms Knx.c112_hasty
#print axioms Knx.c113_decode
#print axioms Knx.c113_device
#print axioms Knx.c114_datapoint
#print axioms Knx.c114_received
#print axioms Knx.c114_list
#print axioms Knx.c114_log
#print axioms Knx.c114_sent
#print axioms Knx.c115_addresses
#print axioms Knx.c115_objects
#print axioms Knx.c115_associations
#print axioms Knx.c115_link
#print axioms Knx.c115_numbers
#print axioms Knx.c115_state
#print axioms Knx.c116_property_partial
#print axioms Knx.c116_group_refuted
#print axioms Knx.c116_refuted
#print axioms Knx.c116_after
#print axioms Knx.c117_log
#print axioms Knx.c117_value_refuted
#print axioms Knx.c117_refuted
#print axioms Knx.c117_write_refuted
#print axioms Knx.c117_write_partial
#print axioms Knx.c118_log
#print axioms Knx.c118_hidden_refuted
#print axioms Knx.c119_log
#print axioms Knx.c119_refuted
#print axioms Knx.c119_partial
#print axioms Knx.c119_received_refuted
#print axioms Knx.c119_ack_refuted
#print axioms Knx.c120_listener
#print axioms Knx.c120_events
#print axioms Knx.c120_server
#print axioms Knx.c120_requester
#print axioms Knx.c120_requester_events
#print axioms Knx.c121_log
#print axioms Knx.c121_connect
#print axioms Knx.c121_request
#print axioms Knx.c121_wire_partial
#print axioms Knx.c121_wire_refuted
#print axioms Knx.c121_ack_refuted
#print axioms Knx.c122_lines
#print axioms Knx.c122_discarded
#print axioms Knx.c122_written
#print axioms Knx.c122_value_refuted
#print axioms Knx.c122_refuted
#print axioms Knx.c123_double
#print axioms Knx.c123_overflow
#print axioms Knx.c123_neighbour
#print axioms Knx.c123_nearest_partial
#print axioms Knx.c123_refuted
#print axioms Knx.c124_report
#print axioms Knx.c124_write
#print axioms Knx.c124_own
#print axioms Knx.c124_discarded
#print axioms Knx.c124_received
#print axioms Knx.c124_refuted
#print axioms Knx.c125_int
#print axioms Knx.c125_int_only
#print axioms Knx.c125_stored_partial
#print axioms Knx.c125_refuted
#print axioms Knx.c126_form
#print axioms Knx.c126_restored
#print axioms Knx.c126_again
#print axioms Knx.c127_float
#print axioms Knx.c127_int
#print axioms Knx.c127_only
#print axioms Knx.c127_unique
#print axioms Knx.c128_tunnel
#print axioms Knx.c128_usb
#print axioms Knx.c128_to_usb
#print axioms Knx.c128_from_usb
#print axioms Knx.c128_int
