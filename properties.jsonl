{"id": "C01", "title": "MAC address text round trip", "statement": "Printing any MAC address and parsing the printed text with MacAddress::new yields exactly the original address, short stays short and extended stays extended; two different addresses never print the same text.", "quantifier": "every short (2-byte) and every extended (8-byte) MAC address", "why_tests_cant": "2^64 extended addresses; the tests print and parse two literals.", "anchors": ["src/mac_address.rs: TryFrom<String> for MacAddress", "src/mac_address.rs: From<&MacAddress> for String"]}
{"id": "C02", "title": "MAC address text acceptance", "statement": "MacAddress::new accepts a text exactly when, after every ':' and then every '%3A' is deleted, what is left is 4 or 16 hexadecimal digits (either case); the accepted bytes are those digits read two by two; every other text is an error, never a crash.", "quantifier": "every finite text", "why_tests_cant": "The set of texts is infinite; tests sample two accepted and two rejected texts.", "anchors": ["src/mac_address.rs: TryFrom<String> for MacAddress", "src/mac_address.rs: MacAddress::new"]}
{"id": "C03", "title": "MAC address numeric and byte views", "statement": "The u64 view of an address is its bytes read little endian, so it determines the address within each format, and the byte view is the address bytes in order; both views are injective per format.", "quantifier": "every MAC address", "why_tests_cant": "Two tests check one literal each.", "anchors": ["src/mac_address.rs: From<&MacAddress> for u64", "src/mac_address.rs: From<&MacAddress> for Vec<u8>"]}
{"id": "C04", "title": "APP configuration read back", "statement": "After AppConfig::set(id, v) succeeds, AppConfig::get(id) returns exactly v, except that a 4-byte UWB_INITIATION_TIME is read back zero extended to 8 bytes.", "quantifier": "every starting configuration, every parameter id, every value byte string", "why_tests_cant": "About 60 parameters with up to 255-byte values and a context dependent format (MAC mode, controlee count).", "anchors": ["src/app_config.rs: AppConfig::set", "src/app_config.rs: AppConfig::get"]}
{"id": "C05", "title": "APP configuration parameters are independent", "statement": "Setting one parameter never changes what get returns for any other parameter, and a failed set changes nothing at all.", "quantifier": "every configuration, every pair of distinct parameter ids, every value", "why_tests_cant": "All pairs of parameters times all values times all prior configurations.", "anchors": ["src/app_config.rs: AppConfig::set", "src/app_config.rs: AppConfig::get"]}
{"id": "C06", "title": "APP configuration acceptance", "statement": "set succeeds exactly when the id is one of the supported FiRa ids and the value has the documented size and, for enumerated parameters, a documented code; it aborts the emulator exactly when a MAC address parameter is set while MAC_ADDRESS_MODE is 1; in every other case it reports an error.", "quantifier": "every configuration, every id representable on the wire, every value byte string", "why_tests_cant": "Infinite value space, and acceptance of DST_MAC_ADDRESS depends on earlier settings.", "anchors": ["src/app_config.rs: AppConfig::set", "src/uci_packets.pdl: AppConfigTlvType and the parameter enums"]}
{"id": "C07", "title": "APP configuration get totality", "statement": "get never aborts the emulator; for a vendor, reserved or unsupported id it reports an error, and for a supported id it reports an error only if the parameter is one of the six optional ones and was never set successfully.", "quantifier": "every configuration and every id", "why_tests_cant": "Needs every configuration reachable by any sequence of sets.", "anchors": ["src/app_config.rs: AppConfig::get"]}
{"id": "C08", "title": "TCP framing", "statement": "Reading from a socket that carries the concatenation of well formed UCI packets returns exactly those packets, in order, and returns end of stream when the stream is cut inside a packet or a header carries an unknown message type.", "quantifier": "every sequence of packets of any payload length up to the length field, every following byte string", "why_tests_cant": "Unbounded sequences and payloads.", "anchors": ["src/packets.rs: uci::read", "src/uci_packets.pdl: ControlPacketHeader, DataPacketHeader"]}
{"id": "C09", "title": "Output segmentation is well formed", "statement": "Every packet put on the wire carries a payload of at most 255 (control) or 1024 (data) bytes and at least 1 byte, its length field equals its payload length, its boundary flag is NOT_COMPLETE on all fragments but the last, its message type, GID/DPF and OID equal those of the message, and the payloads concatenate to the payload of the message.", "quantifier": "every message of at least 4 bytes, of any size", "why_tests_cant": "Messages have unbounded size; boundary cases at every multiple of 255 and 1024.", "anchors": ["src/lib.rs: Pica::write_routine", "src/packets.rs: MAX_CTRL_PACKET_PAYLOAD_SIZE, MAX_DATA_PACKET_PAYLOAD_SIZE, parse_message_type"]}
{"id": "C10", "title": "Control message segmentation and reassembly round trip", "statement": "Sending any non-empty control message through the output segmentation, the TCP framing and the input reassembly gives back one message with the same message type, GID, OID and payload.", "quantifier": "every control message with a non-empty payload of any size, and every sequence of such messages", "why_tests_cant": "Unbounded size and sequence length.", "anchors": ["src/lib.rs: Pica::write_routine", "src/lib.rs: Pica::read_routine", "src/packets.rs: uci::read"]}
{"id": "C11", "title": "Python host recovers what the emulator sends", "statement": "The Host class of the Python package, reading the bytes the emulator wrote for a sequence of messages, returns exactly those messages: same header up to the length field and a cleared boundary flag, same payload, same order.", "quantifier": "every sequence of control and data messages with non-empty payloads", "why_tests_cant": "Unbounded sizes and sequences.", "anchors": ["py/pica/pica/__init__.py: Host._read_packet", "src/lib.rs: Pica::write_routine"]}
{"id": "C12", "title": "Data packets are delivered unmodified", "statement": "A data packet received from the host is delivered to the device unmodified, whatever was received before it.", "quantifier": "every sequence of packets received on one connection", "why_tests_cant": "Depends on every interleaving of control fragments and data packets.", "anchors": ["src/lib.rs: Pica::read_routine"]}
{"id": "C13", "title": "One answer per command", "statement": "A command packet accepted by a reset device is answered by exactly one packet, sent before any other command of that device is processed, whose message type is RESPONSE and whose GID and OID are those of the command.", "quantifier": "every device state and every command packet that does not abort the emulator", "why_tests_cant": "Every byte string in every device state.", "anchors": ["src/device.rs: Device::receive_packet", "src/device.rs: Device::receive_command"]}
{"id": "C14", "title": "Reset comes first", "statement": "Until a device has processed CORE_DEVICE_RESET_CMD, every other parsable command is answered with CORE_DEVICE_STATUS_NTF(DEVICE_STATE_ERROR) only and changes no device, session, timer or configuration state.", "quantifier": "every device state before reset, every command packet", "why_tests_cant": "Every byte string.", "anchors": ["src/device.rs: Device::receive_command", "src/packets.rs: ControlPacket::is_core_device_reset_cmd"]}
{"id": "C15", "title": "Responses and notifications from the host are ignored", "statement": "A packet whose message type is RESPONSE or NOTIFICATION changes nothing and is not answered.", "quantifier": "every device state, every packet body", "why_tests_cant": "Every byte string in every state.", "anchors": ["src/device.rs: Device::receive_packet"]}
{"id": "C16", "title": "Malformed input does not stop the emulator", "statement": "Whatever bytes a host sends, the emulator answers with an error status or ignores them, and goes on serving the other hosts.", "quantifier": "every byte string, every device state", "why_tests_cant": "Every byte string; tests send well formed commands only.", "anchors": ["src/device.rs: Device::receive_packet", "src/device.rs: Device::receive_command", "src/device.rs: Device::data_message_snd"]}
{"id": "C17", "title": "Unknown groups are refused", "statement": "A command with a reserved GID is answered with STATUS_UNKNOWN_GID by every device, and a command with an assigned but unsupported GID likewise by a reset device, the answer echoing GID and OID, and nothing else happens.", "quantifier": "every GID outside the four supported groups, every OID and payload, every device state", "why_tests_cant": "Every payload in every state.", "anchors": ["src/device.rs: Device::receive_packet", "src/device.rs: Device::receive_command"]}
{"id": "C18", "title": "Session table bound and count", "statement": "A device never holds more than 255 sessions nor two sessions with one id, and SESSION_GET_COUNT reports exactly the number of sessions held.", "quantifier": "every history of commands on a device", "why_tests_cant": "Histories are unbounded; the count is a truncated u8.", "anchors": ["src/device.rs: Device::session_init", "src/device.rs: Device::session_get_count", "src/device.rs: MAX_SESSION"]}
{"id": "C19", "title": "Session life cycle", "statement": "A session only moves along DEINIT->INIT, INIT->IDLE, IDLE->ACTIVE, ACTIVE->IDLE and any->DEINIT, each move schedules exactly one SESSION_STATUS_NTF carrying the new state, and no SESSION_STATUS_NTF is scheduled without a move.", "quantifier": "every history of host commands, timers and in-band stops", "why_tests_cant": "Every history.", "anchors": ["src/session.rs: Session::set_state", "src/device.rs: session_* handlers", "src/lib.rs: Pica::stop_controlee_ranging"]}
{"id": "C20", "title": "Only configured sessions become active", "statement": "Whenever a session is IDLE or ACTIVE, DEVICE_ROLE, MULTI_NODE_MODE, RANGING_ROUND_USAGE, DEVICE_MAC_ADDRESS and SCHEDULE_MODE are set and its type is a FiRa ranging type.", "quantifier": "every reachable state", "why_tests_cant": "Every history.", "anchors": ["src/device.rs: Device::session_set_app_config", "src/device.rs: Device::session_start"]}
{"id": "C21", "title": "SESSION_SET_APP_CONFIG is all or nothing", "statement": "The command either applies every parameter, in order, and answers OK with an empty list, or leaves the whole configuration as it was; when it answers INVALID_PARAM the list names exactly the refused parameters in order.", "quantifier": "every session, every list of parameters", "why_tests_cant": "Unbounded lists whose acceptance depends on earlier entries.", "anchors": ["src/device.rs: Device::session_set_app_config"]}
{"id": "C22", "title": "SESSION_SET_APP_CONFIG gating", "statement": "The command is refused with REJECTED in IDLE, with ERROR_SESSION_ACTIVE when it names AOA_RESULT_REQ in ACTIVE, with ERROR_SESSION_NOT_EXIST for an unknown session and with REJECTED when a mandatory parameter would stay unset; INIT moves to IDLE exactly on OK and ACTIVE stays ACTIVE.", "quantifier": "every device state and command", "why_tests_cant": "Every state and list.", "anchors": ["src/device.rs: Device::session_set_app_config"]}
{"id": "C23", "title": "Sessions of a device are independent", "statement": "A session command changes only the session it names: state, type, configuration, ranging count, queued data and timer of every other session of the device are untouched (CORE_DEVICE_RESET excepted).", "quantifier": "every device, every command, every other session id", "why_tests_cant": "Every pair of sessions in every state.", "anchors": ["src/device.rs: session_* handlers"]}
{"id": "C24", "title": "Devices are independent", "statement": "A packet from one host changes only its own device and sends packets only to its own host.", "quantifier": "every environment, every packet", "why_tests_cant": "Every environment.", "anchors": ["src/lib.rs: Pica::uci_packet"]}
{"id": "C25", "title": "SESSION_DEINIT", "statement": "SESSION_DEINIT answers OK exactly when the session exists; afterwards the session does not exist, its timer is cancelled and its DEINIT is notified (unless its last notified state was DEINIT already); otherwise it answers ERROR_SESSION_NOT_EXIST and changes nothing.", "quantifier": "every device and session id", "why_tests_cant": "Every state.", "anchors": ["src/device.rs: Device::session_deinit", "src/session.rs: Drop for Session"]}
{"id": "C26", "title": "CORE_DEVICE_RESET", "statement": "After CORE_DEVICE_RESET the device is indistinguishable from a freshly connected one that has been reset: no session, default configuration, DEVICE_STATE_READY, no timer of the device left running, handle and MAC address kept.", "quantifier": "every device state", "why_tests_cant": "Every prior history.", "anchors": ["src/device.rs: Device::core_device_reset"]}
{"id": "C27", "title": "Device state follows the sessions", "statement": "A device is in DEVICE_STATE_ACTIVE exactly when at least one of its sessions is ACTIVE, and the number of active sessions never underflows.", "quantifier": "every history", "why_tests_cant": "Every history of init, start, stop, deinit, list updates and in-band stops.", "anchors": ["src/device.rs: n_active_sessions", "src/device.rs: Device::set_state", "src/lib.rs: Pica::stop_controlee_ranging"]}
{"id": "C28", "title": "A refused SESSION_INIT disturbs nothing", "statement": "SESSION_INIT with the id of an existing session answers ERROR_SESSION_DUPLICATE and leaves the existing session as it was.", "quantifier": "every device and session id", "why_tests_cant": "Every prior state of the session.", "anchors": ["src/device.rs: Device::session_init"]}
{"id": "C29", "title": "SESSION_START and SESSION_STOP", "statement": "START answers OK exactly in IDLE and STOP answers OK exactly in ACTIVE; on OK the session moves to ACTIVE (a timer starts with the configured RANGING_DURATION) or IDLE (the timer is cancelled); otherwise nothing changes; neither aborts the emulator.", "quantifier": "every device and session", "why_tests_cant": "Every history leading to the state.", "anchors": ["src/device.rs: Device::session_start", "src/device.rs: Device::session_stop"]}
{"id": "C30", "title": "Multicast list update", "statement": "Adding appends exactly the addresses that were absent, in order, without duplicates, while room remains; removing deletes exactly the named addresses; each controlee is answered in order with the status of its own update; NUMBER_OF_CONTROLEES equals the list length afterwards.", "quantifier": "every session, every action, every controlee list", "why_tests_cant": "Unbounded prior histories and lists up to 255 entries with repetitions.", "anchors": ["src/device.rs: Device::session_update_controller_multicast_list"]}
{"id": "C31", "title": "Multicast list bound", "statement": "The controlee list never grows beyond 8 entries through SESSION_UPDATE_CONTROLLER_MULTICAST_LIST.", "quantifier": "every history", "why_tests_cant": "Depends on how the list was configured before.", "anchors": ["src/device.rs: MAX_NUMBER_OF_CONTROLEES", "src/device.rs: Device::session_update_controller_multicast_list"]}
{"id": "C32", "title": "In-band termination requests", "statement": "Removing a present controlee requests exactly IN_BAND_TERMINATION_ATTEMPT_COUNT in-band stops for that address and session id, removing an absent one requests none, and adding requests none.", "quantifier": "every session and controlee list", "why_tests_cant": "Every list with repetitions.", "anchors": ["src/device.rs: Device::session_update_controller_multicast_list"]}
{"id": "C33", "title": "Ranging measurements", "statement": "The measurements of a ranging round are exactly: one per occurrence in the destination list of the address of an existing anchor, and one per other device whose session with the same id is ACTIVE and compatible, in both cases only if the estimator gives both directions; each carries that peer's address, the local distance and angles and the remote angles.", "quantifier": "every environment, estimator and iteration order of the device table", "why_tests_cant": "Hash map order and estimator are arbitrary; any number of devices.", "anchors": ["src/lib.rs: Pica::ranging", "src/lib.rs: make_measurement", "src/app_config.rs: AppConfig::is_compatible_for_ranging"]}
{"id": "C34", "title": "Mutual ranging", "statement": "If two devices hold ACTIVE sessions with the same id, each one's ranging round measures the other, or neither does.", "quantifier": "every pair of active sessions, every estimator", "why_tests_cant": "All pairs of configurations.", "anchors": ["src/app_config.rs: AppConfig::is_compatible_for_ranging", "src/device.rs: Device::can_start_ranging"]}
{"id": "C35", "title": "Ranging count", "statement": "SESSION_GET_RANGING_COUNT reports the number of SESSION_INFO_NTFs sent for the session since it was initialised, and these are numbered 0, 1, 2, ... without gap or repetition.", "quantifier": "every history of fewer than 2^32 rounds", "why_tests_cant": "Unbounded histories.", "anchors": ["src/lib.rs: Pica::ranging", "src/device.rs: Device::session_get_ranging_count"]}
{"id": "C36", "title": "In-band data transfer", "statement": "The application data a host queued with DATA_MESSAGE_SND on an in-band data session is sent, in order and once, in the next ranging round, to every other device whose session of that id is ACTIVE, of that type and RESPONDER, provided the sender is ACTIVE and INITIATOR; afterwards the queue is empty.", "quantifier": "every history of data packets and rounds", "why_tests_cant": "Unbounded histories and sizes.", "anchors": ["src/session.rs: Session::data_message_snd", "src/lib.rs: Pica::ranging"]}
{"id": "C37", "title": "A ranging round touches only its own session", "statement": "A ranging round changes nothing but the ranging count and the queued data of its own session, and sends packets only to the ranging host and the data receivers.", "quantifier": "every environment", "why_tests_cant": "Every environment.", "anchors": ["src/lib.rs: Pica::ranging"]}
{"id": "C38", "title": "In-band stop", "statement": "An in-band stop for an address and session id stops exactly the ACTIVE sessions with that id and that DEVICE_MAC_ADDRESS, cancels their timers, notifies SESSION_STOPPED_DUE_TO_INBAND_SIGNAL, and changes nothing else; repeating it changes nothing.", "quantifier": "every environment", "why_tests_cant": "Any number of devices.", "anchors": ["src/lib.rs: Pica::stop_controlee_ranging"]}
{"id": "C39", "title": "Handles are never reused", "statement": "The handles given to devices and anchors are pairwise distinct over the whole life of the environment.", "quantifier": "every history of connections, disconnections, anchor creations and destructions", "why_tests_cant": "Unbounded histories.", "anchors": ["src/lib.rs: Pica::add_device", "src/lib.rs: Pica::create_anchor", "src/lib.rs: Handle"]}
{"id": "C40", "title": "Anchor registry", "statement": "Creating and destroying anchors behaves like a map keyed by MAC address: create succeeds exactly when no anchor or connected device has the address and returns a fresh handle, destroy succeeds exactly when the anchor exists and returns the handle it was created with; failures change nothing.", "quantifier": "every history", "why_tests_cant": "Unbounded histories.", "anchors": ["src/lib.rs: Pica::create_anchor", "src/lib.rs: Pica::destroy_anchor", "src/lib.rs: Pica::get_category"]}
{"id": "C41", "title": "MAC addresses are unique", "statement": "No two connected devices and no device and anchor share a MAC address.", "quantifier": "every history", "why_tests_cant": "Unbounded histories; the address is a truncated handle.", "anchors": ["src/lib.rs: Pica::add_device", "src/lib.rs: Pica::create_anchor"]}
{"id": "C42", "title": "Connection events", "statement": "For every handle the event stream holds at most one Connected and then at most one Disconnected with the same MAC address, and the connected devices are exactly those connected and not disconnected.", "quantifier": "every history", "why_tests_cant": "Unbounded histories.", "anchors": ["src/lib.rs: Pica::add_device", "src/lib.rs: Pica::disconnect"]}
{"id": "C43", "title": "Ranging timers", "statement": "A session has at most one running timer, an ACTIVE session has exactly one, and none survives SESSION_STOP, SESSION_DEINIT, CORE_DEVICE_RESET, disconnection or an in-band stop.", "quantifier": "every history and schedule", "why_tests_cant": "Every schedule.", "anchors": ["src/device.rs: Device::session_start", "src/session.rs: Session::stop_ranging_task", "src/session.rs: Drop for Session"]}
{"id": "C44", "title": "No schedule stops the emulator", "statement": "With hosts that only send supported, well formed commands, no interleaving of timers, disconnections and commands stops the emulator.", "quantifier": "every schedule", "why_tests_cant": "Every schedule.", "anchors": ["src/lib.rs: Pica::ranging", "src/lib.rs: Pica::run", "src/lib.rs: Pica::add_device"]}
{"id": "C45", "title": "Command queue", "statement": "Commands are processed in the order in which they were queued, the queue never exceeds 1020 entries, and while the emulator runs a non-empty queue can always be processed: no deadlock. A connection puts its packets in the queue and at last, at most once, its end.", "quantifier": "every schedule", "why_tests_cant": "Every schedule.", "anchors": ["src/lib.rs: Pica::run", "src/lib.rs: Pica::new"]}
{"id": "C46", "title": "pcapng traces", "statement": "A trace file is a well formed pcapng section: a reader that follows the block structure recovers exactly the packets written, in order, with their timestamps, and every block length is a multiple of 4.", "quantifier": "every sequence of packets of any size below 2^32-36 bytes and timestamps", "why_tests_cant": "Unbounded sequences.", "anchors": ["src/pcapng.rs: File::create", "src/pcapng.rs: File::write"]}
{"id": "C47", "title": "UCI command codec", "statement": "Every well formed command, serialised as the packet description prescribes, is parsed by the emulator as the same command with the same field values, and reserved bits are ignored.", "quantifier": "every command of the supported groups with any field values", "why_tests_cant": "Unbounded lists and all field values.", "anchors": ["src/uci_packets.pdl", "src/device.rs: Device::receive_command"]}
{"id": "C48", "title": "UCI response codec", "statement": "Every response and notification the emulator sends parses back, following the packet description, to the values the emulator put in it.", "quantifier": "every response and notification value", "why_tests_cant": "All field values and list lengths.", "anchors": ["src/uci_packets.pdl"]}
{"id": "C49", "title": "Device configuration", "statement": "CORE_SET_CONFIG applies the writable parameters in order and answers with exactly the refused ones, and CORE_GET_CONFIG returns the values last set, or exactly the unknown ids with INVALID_PARAM; GET_CONFIG(DEVICE_STATE) reports the device state.", "quantifier": "every device and parameter list", "why_tests_cant": "Every list.", "anchors": ["src/device.rs: Device::core_set_config", "src/device.rs: Device::core_get_config"]}
{"id": "C50", "title": "Status notifications agree with queries", "statement": "At any time the last SESSION_STATUS_NTF scheduled for a session id carries the state SESSION_GET_STATE reports, or DEINIT when the session does not exist, and the last device status scheduled carries the device state.", "quantifier": "every history", "why_tests_cant": "Every history.", "anchors": ["src/session.rs: Session::set_state", "src/device.rs: Device::set_state", "src/device.rs: Device::session_get_state"]}
{"id": "C51", "title": "HTTP device registry", "statement": "The web server's registry holds exactly the devices announced by Connected and not yet Disconnected plus the anchors created and not destroyed through it; set-position changes exactly one entry with that address, answers 404 exactly when there is none, and announces the new position and the ranges to all others.", "quantifier": "every history of events and requests", "why_tests_cant": "Unbounded histories.", "anchors": ["src/bin/http-server/main.rs: Context"]}
{"id": "C52", "title": "HTTP server survives without listeners", "statement": "The web server serves requests and connection events whether or not anyone listens to /events.", "quantifier": "every history and number of listeners", "why_tests_cant": "Every history.", "anchors": ["src/bin/http-server/main.rs: Context::handle_connection_events", "src/bin/http-server/main.rs: Context::http_set_position"]}
{"id": "C53", "title": "Ranges are symmetric", "statement": "The distance from one position to another equals the distance back, for any rounding of the arithmetic, so the server's symmetry assertion never fires, and coincident positions have distance zero.", "quantifier": "every pair of positions and orientations", "why_tests_cant": "2^96 pairs of positions.", "anchors": ["src/bin/http-server/position.rs: Position::compute_range_azimuth_elevation", "src/bin/http-server/main.rs: Context::http_set_position"]}
{"id": "C54", "title": "HTTP routing", "statement": "A request is served by the handler its path names, an unknown path gets 404, a malformed MAC address or position gets 406 and changes nothing.", "quantifier": "every path and body", "why_tests_cant": "Infinitely many paths.", "anchors": ["src/bin/http-server/main.rs: http_request"]}
{"id": "C55", "title": "Angles are in range", "statement": "Azimuth lies in [-180, 180] degrees and elevation in [-90, 90] degrees, so the range assertions never fire.", "quantifier": "every pair of positions and orientations", "why_tests_cant": "2^96 pairs of positions.", "anchors": ["src/bin/http-server/position.rs: azimuth, elevation"]}
{"id": "C56", "title": "Where session parameters come from", "statement": "The application parameters of a session change only by SESSION_INIT (which gives the defaults), by SESSION_SET_APP_CONFIG (which applies all of its parameters or none) and by SESSION_UPDATE_CONTROLLER_MULTICAST_LIST (which changes DST_MAC_ADDRESS and NUMBER_OF_CONTROLEES at most), each sent by the host of that device for that session.", "quantifier": "every environment state, every command, every device and session", "why_tests_cant": "An absence claim over all commands, packets and states.", "anchors": ["src/lib.rs: Pica::run", "src/device.rs: command handlers", "src/app_config.rs: AppConfig::set"]}
{"id": "C57", "title": "When a ranging round completes", "statement": "A ranging round of a session that has its DEVICE_MAC_ADDRESS completes without aborting the emulator exactly when every measured peer has a short address, every data receiver is still connected and the queued data are at most 65535 bytes (if there is a receiver), and, unless notifications are disabled, there are at most 255 measurements, the ranging host is still connected and the count is below 2^32 - 1.", "quantifier": "every reachable environment, estimator and set of open channels", "why_tests_cant": "The failing cases need hundreds of peers, 64 KiB of queued data, 2^32 rounds or a disconnection between two particular events; tests see none of them, and cannot show that there is no further case.", "anchors": ["src/lib.rs: Pica::ranging", "src/lib.rs: make_measurement"]}
{"id": "C58", "title": "The reported range is the distance", "statement": "The range of a measurement is the Euclidean distance of the two positions cut off at 65535: rounded down, with an arithmetic error of at most a tenth of a unit.", "quantifier": "every pair of positions and orientations, every rounding that satisfies the error bounds", "why_tests_cant": "2^96 pairs of positions.", "anchors": ["src/bin/http-server/position.rs: Position::compute_range_azimuth_elevation"]}
{"id": "C59", "title": "The reported azimuth is the bearing", "statement": "The azimuth of a measurement is the angle at which the peer appears in the horizontal plane of the measuring device, to within 0.501 degrees, in all four quadrants.", "quantifier": "every pair of positions, orientations and directions", "why_tests_cant": "2^96 pairs of positions.", "anchors": ["src/bin/http-server/position.rs: azimuth"]}
{"id": "C60", "title": "The reported elevation is the angle above the horizontal plane", "statement": "The elevation of a measurement is the angle at which the peer appears above the horizontal plane of the measuring device, to within 0.501 degrees; a coincident peer is reported straight above.", "quantifier": "every pair of positions, orientations and directions", "why_tests_cant": "2^96 pairs of positions.", "anchors": ["src/bin/http-server/position.rs: elevation"]}
{"id": "C61", "title": "Reported ranges end to end", "statement": "In the program of the web server, a round of a session with notifications reports exactly the peers the session ranges with that have positions in the registry, each with the distance of the two positions.", "quantifier": "every history of the program, every session, positions and rounding", "why_tests_cant": "Every history, every pair of positions and every interleaving.", "anchors": ["src/bin/http-server/main.rs: impl RangingEstimator for Context", "src/lib.rs: Pica::ranging"]}
{"id": "C62", "title": "Messages of a connection", "statement": "The packets received on a connection are grouped into messages exactly as the boundary flags say: a message is a packet that announces no continuation (or a data packet) with all the announced ones directly before it, its bytes are the first packet and then the others without their headers, and an incomplete last message is dropped. A packet that is empty, of unknown type, or a continuation shorter than a header ends the connection, in panic or in order as described; packets read from a byte stream never do. The writer panics for an empty packet only.", "quantifier": "every sequence of packets and every sequence of bytes", "why_tests_cant": "Unbounded sequences of packets of arbitrary content and fragmentation; no test fragments a command.", "anchors": ["src/lib.rs: read_routine", "src/lib.rs: write_routine", "src/packets.rs: read"]}
{"id": "C63", "title": "The host receives what the emulator sends", "statement": "Whatever happens, every response, notification and data message put on the channel of a device can be encoded, is written by the connection task without panic, and is read back by the Python host as exactly the message sent, all in order; after any number of messages the host has read exactly these.", "quantifier": "every schedule of the emulator and its tasks, every device", "why_tests_cant": "Depends on all schedules and on the sizes of all notifications and responses.", "anchors": ["src/lib.rs: write_routine", "src/device.rs: receive_packet", "src/session.rs: set_state", "py/pica/pica/__init__.py: _read_packet"]}
{"id": "C64", "title": "The emulator receives what the host sends", "statement": "Every control message of up to 255 payload bytes and every data message of up to 65535 payload bytes that the Python host sends reaches the emulator with the same type, group, opcode and payload, in order and undisturbed by each other; a serialised command is recognised as that command.", "quantifier": "every list of messages the host can send", "why_tests_cant": "Unbounded lists of messages of arbitrary content; the tests send a fixed few.", "anchors": ["py/pica/pica/__init__.py: send_control", "py/pica/pica/__init__.py: send_data", "src/packets.rs: read", "src/lib.rs: read_routine"]}
{"id": "C65", "title": "Answers to data packets", "statement": "A DATA_MESSAGE_SND for a session of type ranging-with-data is answered by a credit notification and its bytes are appended to what exactly that session has to send; for a session of another type it is refused with the low byte of its sequence number, for no session it is rejected, and in both cases nothing changes. A DATA_MESSAGE_RCV is answered with an invalid-format notification. Data packets shorter than a header or of unknown format are ignored.", "quantifier": "every reachable state, device, data packet and session", "why_tests_cant": "Arbitrary session states, handles and payloads; no test sends data to a session without data transfer.", "anchors": ["src/device.rs: data_message_snd", "src/device.rs: receive_packet", "src/session.rs: data_message_snd"]}
{"id": "C66", "title": "Device information and capabilities", "statement": "GET_DEVICE_INFO on a READY device answers with the fixed versions, GET_CAPS_INFO with the fixed table of 27 capabilities in order, GET_POWER_STATS with zeros; none changes anything. SET_COUNTRY_CODE changes the country code only.", "quantifier": "every state in which the device has been reset, every encoding of the commands", "why_tests_cant": "Every state of the emulator; a test sees the answer in one state.", "anchors": ["src/device.rs: core_get_device_info", "src/device.rs: core_get_caps_info", "src/device.rs: DEFAULT_CAPS_INFO", "src/device.rs: android_get_power_stats", "src/device.rs: android_set_country_code"]}
{"id": "C67", "title": "Reading application parameters", "statement": "SESSION_GET_APP_CONFIG answers OK with the values in the order asked for if all the parameters have a value of at most 255 bytes, FAILED and no values if one has none, SESSION_NOT_EXIST for an unknown session, and changes nothing; in the one remaining case, a value longer than 255 bytes, the emulator aborts.", "quantifier": "every state, session and list of parameter identifiers", "why_tests_cant": "Arbitrary lists of identifiers against arbitrary configurations.", "anchors": ["src/device.rs: session_get_app_config", "src/app_config.rs: get"]}
{"id": "C68", "title": "Parameters of a new session", "statement": "A session is created only by SESSION_INIT. It then has exactly the documented default value for each of the 256 parameter identifiers (none for the six mandatory ones and for the unsupported ones), the type asked for, no data, sequence number 0 and no ranging task; the same holds for the session left by SESSION_INIT of a session that exists.", "quantifier": "every reachable state, step, device, session and parameter identifier", "why_tests_cant": "No test reads back all parameters, and none shows that nothing else creates sessions.", "anchors": ["src/app_config.rs: impl Default for AppConfig", "src/session.rs: Session::new", "src/device.rs: session_init"]}
{"id": "C69", "title": "Reasons of session state changes", "statement": "Every SESSION_STATUS_NTF gives the reason of the change: SESSION_STOPPED_DUE_TO_INBAND_SIGNAL (0x05) if a peer stopped the session, ERROR_INVALID_NUM_OF_CONTROLEES (0x33) if the host removed the last controlee, STATE_CHANGE_WITH_SESSION_MANAGEMENT_COMMANDS (0x00) for the other commands of the host and when the device or session goes away; nothing else causes one.", "quantifier": "every state, command to the emulator and notification it causes", "why_tests_cant": "Every path to a state change, including dropped sessions whose notification is sent by a destructor.", "anchors": ["src/session.rs: set_state", "src/session.rs: stop_ranging_task", "src/device.rs: session_update_controller_multicast_list", "src/lib.rs: stop_controlee_ranging"]}
{"id": "C70", "title": "Commands of the Python host", "statement": "Every command object of the Python packet library whose fields fit is serialised to the bytes the UCI description gives for it; sent by the Python host, in any sequence, the commands reach the emulator in order and with the same fields. Data messages and the list of controlees in a multicast command likewise.", "quantifier": "every sequence of commands with fields that fit and payloads of at most 255 bytes; every list of at most 255 controlees with keys of 0, 16 or 32 bytes; every data message of at most 65535 bytes", "why_tests_cant": "Two independently generated codecs in two languages agree on all values only by a proof over both.", "anchors": ["py/pica/pica/packets/uci.py: serialize", "py/pica/pica/__init__.py: send_control", "src/device.rs: receive_packet"]}
{"id": "C71", "title": "Responses and notifications read by the Python host", "statement": "In every schedule the Python host parses every packet the emulator sends to it as an object of the class of that packet, with the same fields, in order.", "quantifier": "every schedule of the tasks, every connection, every prefix of the packets sent to it", "why_tests_cant": "Arbitrary histories; and no Python test updates a multicast list, the one case in which the checked-in library disagrees with the emulator.", "anchors": ["py/pica/pica/packets/uci.py: parse", "py/pica/pica/__init__.py: _recv_control, _recv_data", "src/device.rs: send_control"]}
{"id": "C72", "title": "Files transferred by the console", "statement": "The data_transfer command of the console splits a file of any size into data messages of 1024 bytes and one remainder, numbered from 0; the emulator reassembles them into exactly the file in the queue of the session, answering each with a credit; and the next ranging round delivers the file whole and once to the peers of the session.", "quantifier": "every file, every destination address of at most 8 bytes, every reachable state with an ACTIVE data session", "why_tests_cant": "Files of every size; the test sends one of about 4 kB between two devices.", "anchors": ["py/pica/console.py: data_transfer", "src/device.rs: data_message_snd", "src/lib.rs: ranging"]}
{"id": "C73", "title": "Commands of the console", "statement": "Every command line of the console with arguments in range is sent as the UCI command it stands for, and the emulator receives the commands in the order typed.", "quantifier": "every sequence of console command lines with arguments in range; every history of a host that sends only what the console sends", "why_tests_cant": "The console is interactive and has no test; the failing commands raise only when typed.", "anchors": ["py/pica/console.py: device_reset, get_device_info, get_caps_info, set_config, get_config, session_init, session_set_app_config", "py/pica/pica/packets/uci.py"]}
{"id": "C74", "title": "Responses over whole schedules", "statement": "In every schedule the responses sent to a host are, in order and without exception, exactly those due to the packets of this host that have been processed: one with the same group and opcode per command once the device has been reset (before that only to the reset itself and to reserved groups) and one per packet of unknown type. The packets processed are the first ones received, all of them when the queue is empty, and the responses the Python host reads are the first ones due to what it sent.", "quantifier": "every schedule of hosts, timers, notifications and clients; every host", "why_tests_cant": "Interleavings of any length with any number of other hosts; a test sees one interleaving.", "anchors": ["src/lib.rs: run, uci_packet, connect", "src/device.rs: receive_packet, receive_command", "py/pica/pica/__init__.py: _read_packets"]}
{"id": "C75", "title": "Delayed notifications are delivered once", "statement": "In every schedule the delayed notifications sent to a host and those still sleeping are together exactly those its device scheduled, each once; the session states in them are those the session went through from DEINIT along the life cycle; once none sleeps, the host knows from the notifications alone, whatever their order, whether the session exists.", "quantifier": "every schedule; every host and session id", "why_tests_cant": "Any number of notifications on their way at the same time, in any order.", "anchors": ["src/session.rs: set_state", "src/device.rs: set_state, session_update_controller_multicast_list"]}
{"id": "C76", "title": "Notifications arrive in order", "statement": "A host is told of the states of its sessions in the order in which the sessions went through them.", "quantifier": "every schedule; every host", "why_tests_cant": "The order is lost only when two notification tasks with nearly equal deadlines are scheduled in the other order.", "anchors": ["src/session.rs: set_state"]}
{"id": "C77", "title": "Traces are complete", "statement": "In every interleaving of the reader and the writer of a connection, a reader of captures finds in the trace file all the packets that crossed the connection, in order and with times that do not decrease; those of the host are the first ones it sent and make up the messages the emulator received; those of the emulator are a segmentation of the messages its device sent, and all of them were written except perhaps for a last one that could not be. The connection has ended exactly when it was closed, a packet could not be written, a packet of an unknown type was read, the device sent an empty message, or a continuation was too short for a header.", "quantifier": "every sequence of steps of a connection task, with every input and every message of the device", "why_tests_cant": "Interleavings of two routines over unbounded streams, closed or failing at any point.", "anchors": ["src/lib.rs: read_routine, write_routine, add_device", "src/pcapng.rs: File::create, File::write"]}
{"id": "C78", "title": "Traces tell who sent a packet", "statement": "The trace file of a connection tells which packets the host sent and which the emulator sent, and so the messages exchanged.", "quantifier": "every sequence of steps of a connection task; every schedule of the emulator", "why_tests_cant": "Two different connections with the same trace; a test sees one.", "anchors": ["src/pcapng.rs: File::write (the direction is not used)", "src/lib.rs: read_routine, write_routine"]}
{"id": "C79", "title": "Texts of the web server", "statement": "A reader that follows the standards of event streams and JSON finds in the text of /events exactly the events sent, in order, each with its name and the fields of the event, and in a part of that text the first ones of them; it finds in the body of /get-state exactly the devices of the registry.", "quantifier": "every list of events, every cut of their text, every registry", "why_tests_cant": "Infinitely many lists of events and devices; every cut of the stream.", "anchors": ["src/bin/http-server/main.rs: http_events, http_get_state, Event, DeviceInformation", "src/bin/http-server/position.rs: Serialize", "src/mac_address.rs: Serialize"]}
{"id": "C80", "title": "The page shows the registry", "statement": "Once the page of the web server has handled what is under way to it, it shows exactly the devices of the registry, with their positions, and as neighbors only devices of the registry with the measurements of the present positions; a device that has been placed and all others are neighbors.", "quantifier": "every interleaving of the requests and listeners of a page with the handlers of the server", "why_tests_cant": "Every interleaving and every history of the registry.", "anchors": ["static/index.html: update_state, listeners of /events", "src/bin/http-server/main.rs: http_events, http_get_state, http_set_position"]}
{"id": "C81", "title": "The web server is as its OpenAPI description says", "statement": "Every event and the body of /get-state conform to the schemas of static/openapi.yaml, and every request for a command is answered by one of the status codes listed for it.", "quantifier": "every registry, event, request and answer of the emulator", "why_tests_cant": "Needs every event over all positions and every reachable reply of each handler.", "anchors": ["static/openapi.yaml", "src/bin/http-server/main.rs: Event, http_get_state, http_request, http_set_position, http_create_anchor, http_destroy_anchor"]}
{"id": "C82", "title": "Ranging with the default program", "statement": "In the default program there are no anchors; every ranging round with notifications reports exactly the other devices with a compatible ACTIVE session of the same id, each once, with distance and angles zero; and queued data are sent once to every device that gets them, without exception.", "quantifier": "every schedule of the default program", "why_tests_cant": "All interleavings and all numbers of devices and sessions.", "anchors": ["src/bin/main.rs: MockRangingEstimator, accept_incoming", "src/lib.rs: ranging"]}
{"id": "C83", "title": "Delayed notifications arrive in their time and order", "statement": "Every delayed notification is put on the channel to its host no earlier than the end of its delay and no later than the lateness of the machine after it, each once, and none is left out; notifications whose delays end further apart than the lateness arrive in the order of their commands; hence a host whose session changes its state no faster than the lateness is told the states in their order, along allowed transitions.", "quantifier": "every timed schedule, every lateness, host and session", "why_tests_cant": "All interleavings of sleeping tasks, all delays and any lateness.", "anchors": ["src/session.rs: set_state", "src/device.rs: set_state, core_device_reset, new, session_start"]}
{"id": "C84", "title": "A session ranges at most once per interval", "statement": "The commands of a ranging task are at least its interval apart, the first one an interval after the start; after an abort at most one more follows, and only if the task had woken before. In any time T a session with intervals of at least m gets at most T/m rounds, and one more per start; the same holds for its SESSION_INFO_NTFs. The interval is the RANGING_DURATION the session has when it is started: 200 ms unless its host asked for another one.", "quantifier": "every timed schedule, every lateness, host, session and number of restarts", "why_tests_cant": "All interleavings over unbounded time with any number of starts and stops.", "anchors": ["src/device.rs: start_ranging, stop_ranging", "src/lib.rs: ranging"]}
{"id": "C85", "title": "How a turned device sees its peers", "statement": "The azimuth and elevation of a measurement are those of the offset of the peer turned by yaw about the vertical axis, then pitch about the sideways axis, then roll about the forward axis: with yaw alone the azimuth is the bearing plus the yaw, with pitch alone the elevation of a peer ahead is its rise minus the pitch, and a device aimed at its peer to the nearest degree reports at most one degree in both, whatever its roll.", "quantifier": "every pair of positions, every yaw, pitch and roll, every rounding and rotation within the stated accuracy", "why_tests_cant": "All orientations, positions and roundings; tests compare a handful of angles.", "anchors": ["src/bin/http-server/position.rs: compute_range_azimuth_elevation, Position::new"]}
{"id": "C86", "title": "The position in the body of a request", "statement": "A request that creates an anchor or sets a position places the device where its JSON body says: a body that describes a position (an object with each of x, y, z, yaw, pitch and roll once, as integers that fit, in any order and with any other members, or an array of the six) is taken as that position, every body the page sends is understood, and a body that is not blank and describes no position is refused.", "quantifier": "every byte string as body, every command with a position, every position", "why_tests_cant": "All byte strings, with all nestings of ignored values, escapes in names and places where a body may be cut off.", "anchors": ["src/bin/http-server/main.rs: PositionBody, position!, http_request", "static/index.html: set_position"]}
{"id": "C87", "title": "The angles shown for a device", "statement": "The yaw, pitch and roll that the events, the state and the page show for a device are those that were set.", "quantifier": "every position with its three angles, every rounding of the floating point operations within the stated accuracy", "why_tests_cant": "All 2^40 combinations of angles, and all conforming implementations of the floating point functions.", "anchors": ["src/bin/http-server/position.rs: Position::new, impl Serialize for Position"]}
{"id": "C88", "title": "Nothing is left undone", "statement": "In every schedule without end and without a panic in which every task gets its turn again and again: every command in the queue is processed, after exactly those before it; every connection gets a new device and runs; every response due to the packets received from a host is sent; the device of a connection that is closed disappears for good; every delayed notification is sent; a session either ranges again or ceases to be ACTIVE; and a session whose ranging has ended and that is not started again is not ranged any more after some time.", "quantifier": "every infinite fair schedule of all tasks", "why_tests_cant": "Liveness: infinite schedules; a test sees finite prefixes of a few.", "anchors": ["src/lib.rs: Pica::run, Pica::connect", "src/session.rs: Session::start_ranging, stop_ranging_task", "src/device.rs: Device::start_ranging"]}
{"id": "C89", "title": "In-band stops", "statement": "For every address and session the number of in-band stops sent and still to be sent is the number asked for by the controlees removed, IN_BAND_TERMINATION_ATTEMPT_COUNT for each; if every task gets its turn all of them are sent.", "quantifier": "every schedule, and every infinite fair schedule", "why_tests_cant": "Unbounded schedules; liveness.", "anchors": ["src/device.rs: Device::session_update_controller_multicast_list"]}
{"id": "C90", "title": "What the clients of the web server get", "statement": "A connection is registered and announced at the origin and a disconnection removes it; the requests for anchors are answered in their order, each by the outcome of its own command and at most once: 200 with the registry changed by exactly the anchor asked for, at the position asked for, and this announced, or 409 or 404 with nothing changed, or 500 if the command is lost. /get-state lists exactly the registered devices. The files are served under exactly their paths. A handler that panics poisons the lock, after which every handler panics. Up to 16 connection events may wait; more end the program.", "quantifier": "every registry, request and history of the program", "why_tests_cant": "Unbounded histories; all interleavings of handlers and event loop.", "anchors": ["src/bin/http-server/main.rs: Context::handle_connection_events, http_create_anchor, http_destroy_anchor, http_get_state, http_request, STATIC_FILES", "src/lib.rs: Pica::new (event channel)"]}
{"id": "C91", "title": "Moving and turning devices on the page", "statement": "While a device is dragged on the map its marker is drawn within one unit of the mouse as long as that place is on the grid, and stays on the grid otherwise; the handle changes the elevation by twice the movement, never below the ground. A slider sets its angle and nothing else. Pressing the mouse on a device selects it, and it stays the selected one until the mouse is pressed again. Every request the page sends for a device is understood by the server as putting that device where the page shows it. A click changes neither the place of a device nor where it looks. A page loaded at a quiet time shows the registry again as soon as the user is idle and everything under way has been handled, and a device is then where it was last put.", "quantifier": "every history of the page, the server and the user; every point of the map, rational coordinates included", "why_tests_cant": "Unbounded interleavings of gestures, requests and events; there are no tests of the page at all.", "anchors": ["static/src/components/Map.js: onMouseDown, onMouseUp, onMouseMove", "static/src/components/DeviceInfo.js: setYaw, setPitch, setRoll, notifyChange", "static/index.html: set_position and the listeners of the events", "src/bin/http-server/main.rs: http_set_position, PositionBody"]}
{"id": "C92", "title": "The ranging test of the repository", "statement": "On a machine whose delayed notifications are less than 4 ms late and where everything else is done within less than 250 ms, the ranging test passes: no host of it raises an exception, the emulator does not panic, no host is ever stuck, and each host is done 2.017 s after its connection was accepted, plus five times the lateness of notifications and 22 times that of everything else. Both bounds are sharp: with 4 ms, or with 250 ms, there are runs in which the test fails.", "quantifier": "up to 247 hosts that run the controller or the controlee of the test with any addresses, every interleaving of hosts, connections, ranging tasks and notifications, every timing within the bounds", "why_tests_cant": "It is about the test itself: whether a test is flaky cannot be seen by running it, and the interleavings and timings are unbounded.", "anchors": ["tests/ranging.py: controller, controlee, run", "tests/helper.py: init", "py/pica/pica/__init__.py: Host.send_control, Host.expect_control", "src/device.rs: Device::new, command_device_reset, command_session_init, command_session_start, command_session_stop", "src/session.rs: start_ranging, set_state"]}
{"id": "C93", "title": "The data transfer test of the repository", "statement": "On a machine whose delayed notifications are less than 4 ms late, where the connection of the controlee is accepted at most `gap` after that of the controller and everything else is done within `lag`, with gap + 5 late + 12 lag < 995 ms and 4 late + (17 + 3 n) lag < 1 s for a file of n parts and at most 65535 bytes, and where the emulator has an estimate of where the two hosts are whenever it processes a command, the data transfer test passes: no host raises an exception (so the controlee receives exactly the bytes of the file), the emulator does not panic, no host is ever stuck, the controller is done 2.017 s and the controlee 1.017 s after its connection was accepted, plus five times the lateness of notifications and 22 or 21 plus 3 n times that of everything else. A gap of a second makes it fail on a perfect machine.", "quantifier": "every file of at most 65535 bytes, every pair of addresses, every interleaving of hosts, connections, ranging tasks and notifications, every timing within the bounds", "why_tests_cant": "It is about the test itself: it is run with one file and whatever timing the machine has, while files, interleavings and timings are unbounded.", "anchors": ["tests/data_transfer.py: controller, controlee, data_transfer, run", "tests/helper.py: init", "py/pica/pica/__init__.py: Host.send_data, Host.expect_data, Host.expect_control, Host._read_packets", "src/session.rs: data_transfer, data", "src/lib.rs: ranging", "src/device.rs: can_start_data_transfer, can_receive_data_transfer"]}
{"id": "C94", "title": "The two sides give the same codes to the same names", "statement": "Every enumeration of the packet description that only takes its named tags has, in the Python package, a class of the same name with exactly the same tags and codes, whose from_int returns for exactly the codes the emulator takes; distinct tags have distinct codes. Of the enumerations that take further codes, the Python classes have the same tags and codes outside of the ranges and none of those declared within a range, and take every other value. Of these five the emulator refuses exactly eight types of application parameters, and nothing else.", "quantifier": "every enumeration used by a modelled packet, every tag, every integer given to from_int", "why_tests_cant": "The tests use a few dozen of the about three hundred and fifty tags; a code that differs on one side is only seen by a test that sends this tag.", "anchors": ["src/uci_packets.pdl: enum declarations", "py/pica/pica/packets/uci.py: classes derived from enum.IntEnum, from_int"]}
{"id": "C95", "title": "A line typed at the console does what it asks for", "statement": "A line whose words are the name of a command and values for its parameters, the first by order and others by name in any order, with any number of spaces and trailing blanks, missing ones having their default, writes exactly the packet of this command with these values, or asks the web server for exactly this: a device is placed at the address and coordinates that were typed if they fit a position and the request is refused with 406 otherwise; anchors are removed; a file is sent whole to the address and session given. The emulator receives a sequence of such lines as that sequence of commands. A word with two equals signs, more values than parameters, and a session that is no number end the console with an exception; quit and q end it, and an unknown command only lists the others.", "quantifier": "every line, every phrasing of a command in printable characters, every file, every address, every integer of up to 4300 digits", "why_tests_cant": "The repository has no test of the console; the ways to write a line (order, names, defaults, spaces) times the values cannot be listed.", "anchors": ["py/pica/console.py: command_line, Device.pica_set_position, Device.data_transfer, parse_mac_address", "src/bin/http-server/main.rs: http_request"]}
{"id": "C96", "title": "The Python packets are read back as they were written", "statement": "Every object of a class of messages of the Python package whose fields are in range is written without an exception, and what is written is read as that object by the parser for control packets or for data; different messages are written differently. Conversely whatever is read, including packets no class takes, is written with as many bytes and read back; what is read has its fields in range, so the ranges are exact. The same holds of every structure inside a message, whatever follows it. An object whose fields are too large is written like the object left when every integer is cut to its bits and every list to what its count can say. (False of two commands: GetConfig and GetAppConfig with an identifier that has no name are written and not read.)", "quantifier": "every object of every class of messages, every list of up to 255 elements, every byte sequence", "why_tests_cant": "The package has no test of the round trip; the fields span up to 64 bits and the nested lists are unbounded in number of combinations, and most classes are used by no test.", "anchors": ["py/pica/pica/packets/uci.py: ControlPacket, DataPacket and derived classes, parse and serialize"]}
{"id": "C97", "title": "A running session ranges in every interval", "statement": "On a machine that lets no ranging task wait longer than a given lag, a session that is ACTIVE was last started at some time, and since then its one task has put a ranging command in the queue every interval: each no sooner than the interval and no later than the lag after it, with none outstanding now. The number of commands is the elapsed time divided by the interval, within the lag; the rounds processed, with those still in the queue, are no fewer.", "quantifier": "every prompt timed schedule, every lag, host, session and number of restarts", "why_tests_cant": "All interleavings over unbounded time; that no command is ever lost or delayed is not something a finite test shows.", "anchors": ["src/device.rs: start_ranging, stop_ranging", "src/lib.rs: ranging"]}
{"id": "C98", "title": "The Python packets have the layouts of the packet description", "statement": "Every object of a message class of uci.py with its fields in range is written with exactly the bits that uci_packets.pdl gives its packet: every field at its place, with its width and byte order, the counts and lengths of what follows, the fixed codes of the class, reserved bits 0. Whatever is read has the layout of the object it is read as, and all bytes with the layout of an object in range, whatever their reserved bits, are read as that object. (The answer to a multicast update lacks its list.)", "quantifier": "every object of every message class, every byte string", "why_tests_cant": "A writer and a reader that agree on the wrong place of a field pass every round-trip test; the comparison with the description is over all values of all fields of 60 classes and all byte strings.", "anchors": ["py/pica/pica/packets/uci.py", "src/uci_packets.pdl"]}
{"id": "C99", "title": "The emulator's packets have the layouts of the packet description", "statement": "Every response, notification and data message of the emulator is encoded exactly with the bits that uci_packets.pdl gives its packet (every field at its place, with its width and byte order, counts and lengths, the fixed group, message type and opcode, reserved bits 0), and it is encoded exactly when its fields are in range. Bytes are parsed as a command, as a list of controlees, as data, or by a host as a response or notification, exactly when they have the bits of that packet, whatever the reserved ones. No bytes have the layouts of two commands, responses or notifications.", "quantifier": "every message with any values of its fields, every byte string", "why_tests_cant": "Encoder and decoder come from one generator, so that round-trip tests see no field at a wrong place; the claim is about all values and all byte strings, including every setting of the reserved bits.", "anchors": ["src/uci_packets.pdl", "src/packets.rs", "src/device.rs", "src/session.rs"]}
{"id": "C100", "title": "The size of a Python packet is the number of bytes it takes", "statement": "The size property of a Python packet object read from a byte string is the number of these bytes less those of the headers that the classes it is derived from write. False: the two commands that ask for parameters count eight bytes for each identifier instead of one, exactly seven too many each; and the size of a notification with a DL-TDoA measurement raises an exception, that of no other packet does. Of all other packets it holds, read or built with their fields in range.", "quantifier": "every byte string that is parsed and every packet object", "why_tests_cant": "There are 60 classes with lists of up to 255 elements of various sizes, and nothing in the repository calls the property.", "anchors": ["py/pica/pica/packets/uci.py"]}
{"id": "C101", "title": "Which panics stop the emulator", "statement": "With hosts that send well formed commands, exactly eleven pairs of a cause and a panic site end the event loop in some schedule: a message of a host ends it at the assertion that the device is READY, at the assertion on the session type, at MAC_ADDRESS_MODE 1, at the assertion that a session to be started has no ranging task, and at an answer that does not fit its length field; a due ranging round at a missing device, at a missing session, at an extended address, at a notification or data packet that does not fit, at a closed channel, and at the 2^32-th round. With hosts that send any bytes there are exactly two more: a packet of a known group that is not well formed and an unsupported opcode. The underflow of the count of active sessions, indexing a message, a missing MAC address, a session under a wrong identifier, an anchor inserted twice and the unreachable arm never happen, and connections, disconnections, in-band stops and the web server stop nothing.", "quantifier": "every schedule of the emulator with messages the connection tasks deliver, for every panic site", "why_tests_cant": "That a site is never reached is a statement on all schedules; and one of the sites needs 2^32 rounds.", "anchors": ["src/lib.rs", "src/device.rs", "src/session.rs", "src/app_config.rs"]}
{"id": "C102", "title": "Ranges below 20 metres are exact", "statement": "If two positions are less than 2000 units (centimetres) apart, the range reported for them is exactly the whole part of their distance, whatever the rotation and however single precision arithmetic rounds.", "quantifier": "every pair of positions less than 2000 apart, every rotation and every rounding that satisfies Arith", "why_tests_cant": "There are more than 10^20 such pairs, and a root just below a whole number could be rounded up; tests see a few of them.", "anchors": ["src/bin/http-server/position.rs"]}
{"id": "C103", "title": "The repository's unit tests hold of the model", "statement": "The expectations of the unit tests of position.rs (ranges, azimuths and elevations of 21 pairs of positions, with and without rotation) hold with every rounding that satisfies Arith and every rotation that is accurate to 2^-12, in particular that of glam; those of mac_address.rs hold of the modelled conversions.", "quantifier": "every rounding and every accurate rotation, for the listed positions and addresses", "why_tests_cant": "The tests run one rounding and one library; the theorem says that their outcome does not depend on either, and ties the model to the expectations of the code's authors.", "anchors": ["src/bin/http-server/position.rs", "src/mac_address.rs"]}
{"id": "C104", "title": "Which texts the console takes for a number", "statement": "The console takes a text for an integer exactly if it consists of white space (without the separators 1c to 1f), maybe a sign, at most 4300 decimal digits with at most one underscore between two of them, and white space; and for the bytes of an address exactly if it consists of such hexadecimal numbers below 256, each maybe with a prefix 0x, with colons in between. A command for a session with one word writes the packet of the number the word stands for and ends the console if it is no natural number. A file goes to the bytes its address stands for, however they are written, and nowhere if it is no address.", "quantifier": "every text, every command for a session, every trailing white space", "why_tests_cant": "The texts are infinitely many; tests use plain numerals.", "anchors": ["py/pica/console.py"]}
{"id": "C105", "title": "The page draws what the emulator computes", "statement": "The map is a picture of space taken from afar at equal angles to the three axes. Every device is drawn as a cube at its position, its three visible faces where they are seen, and the outline of the selected one is its rim. From a device that is not on the ground a line is drawn straight to the ground, with a cross at its end. The axes of an orientation have the colours of the coordinates and are pictures of the axes of space. The arrow of a device is the picture of the direction in which the emulator sees a peer straight ahead, the blue sector lies between the forward axis and the yaw, the red one between the ground and the pitch. The arrow of a neighbor is the picture of the direction in which the device sees it, to about a degree. (False of a device more than 40 below the ground: no cross is drawn.)", "quantifier": "every marker, every yaw and pitch, every pair of positions, every rounding and rotation within the stated accuracy", "why_tests_cant": "There are no tests of the page; all positions and angles, and the agreement of four coordinate systems with different signs and orders of rotation.", "anchors": ["static/src/components/Map.js: createIsometricMatrix, render", "static/src/components/Orientation.js: render", "static/src/components/DeviceInfo.js: render", "src/bin/http-server/position.rs: compute_range_azimuth_elevation"]}
{"id": "C106", "title": "The console shows what it received", "statement": "Of every packet received the console prints all bytes, so that they can be read back, and of every packet it can read a description with all fields: two packets described to the end with the same text are of the same class and agree in everything but a payload and the time stamps of DL-TDoA measurements. In every schedule every notification and every response that the emulator sends is described to the end. (False of responses with an identifier that has no name, the answer to CORE_GET_CAPS_INFO always among them: the description breaks off.)", "quantifier": "every sequence of bytes received; every object of every class, with lists of any length; every schedule of the emulator", "why_tests_cant": "Nothing tests the output of the console; injectivity over all objects and all lengths of lists, and the exact set of identifiers at which it breaks off.", "anchors": ["py/pica/pica/packets/uci.py: Packet.show", "py/pica/console.py: read_responses_and_notifications", "src/device.rs: DEFAULT_CAPS_INFO"]}
{"id": "C107", "title": "The web server leaves nothing undone", "statement": "In a run of the program that goes on forever and passes over neither the event loop, nor the task that hears of connections, nor a handler that waits: every connection event is handled by the web server, in order; every request for an anchor comes to the outcome of its own command, which its handler gets unless it is dropped. If no successful handler is dropped, the answers about one handle are seen in order and no handler panics, the registry comes to know of each handle what the emulator has, and stays so; without the condition on the order it can differ forever.", "quantifier": "every endless fair schedule of emulator, event handler and request handlers; every handle; every history of requests", "why_tests_cant": "Liveness over infinite schedules with any number of requests and events under way; a test only ever sees a finite prefix of one schedule.", "anchors": ["src/bin/http-server/main.rs: handle_connection_events", "src/bin/http-server/main.rs: http_create_anchor, http_destroy_anchor", "src/lib.rs: Pica::run"]}
{"id": "C108", "title": "A listener that keeps up loses no event", "statement": "A listener of /events gets the events sent since it came in order and without a gap. A handler sends one event, set-position one and two more for each device of another address. A listener that has read all when a handler begins therefore loses nothing if there are at most 512 devices, however its task and the handler interleave; with more, one set-position can end the stream of every listener before it has got anything of it.", "quantifier": "every history of handlers, every interleaving of their events with the steps of a listener, every number of devices; the loss for every number from 513 to 65536", "why_tests_cant": "The loss depends on the number of devices and on the schedule of two tasks; tests use a handful of devices and see one interleaving.", "anchors": ["src/bin/http-server/main.rs: Context::new", "src/bin/http-server/main.rs: http_events", "src/bin/http-server/main.rs: http_set_position"]}
{"id": "C109", "title": "Hosts come and go in the emulator and on the web server alike", "statement": "In an endless fair run of the program with the web server: a host whose connection was accepted gets a device with a new handle, and the registry comes to have this device, with its address, at the origin. A host that closes its connection disappears from the emulator and from the registry and does not come back, whatever requests are made, dropped or answered out of order meanwhile. Every response due to a host is sent, and every ACTIVE session ranges unless it ceases to be ACTIVE, also with the web server at work.", "quantifier": "every endless fair schedule of emulator, tasks, event handler and request handlers; every host; every history of requests", "why_tests_cant": "Liveness over infinite schedules of three kinds of tasks; a test sees a finite prefix of one schedule, usually without the web server.", "anchors": ["src/bin/http-server/main.rs: handle_connection_events", "src/lib.rs: Pica::connect, Pica::disconnect", "src/lib.rs: Pica::run"]}
{"id": "C110", "title": "Completion at the console", "statement": "While the first word of a line is typed, the completer proposes exactly the commands that begin with it, and each of them is known when it is entered. After a command it proposes exactly its parameters that begin with the word being typed, and nothing for a value or after a command that does not exist. It gives its proposals one after the other and then None, without an exception. Nothing is proposed that the console refuses in that place.", "quantifier": "every line of words of printable characters with any number of spaces between them, every beginning of a word, every command", "why_tests_cant": "The lines are unbounded and no test of the repository runs the console; the false part needs a positional argument before the completion.", "anchors": ["py/pica/console.py: complete (434-466)", "py/pica/console.py: command_line (471-491)"]}
{"id": "C111", "title": "A Python host gets the answers to its commands", "statement": "Whatever commands a host written with the Python package sends, and whatever else happens, the responses it reads are objects of the classes of the responses to its commands from its first CORE_DEVICE_RESET on, one for each and in the order of the commands; and when all of them have been processed and everything has been read, none is missing. The response to a multicast list update is read as a packet of its group.", "quantifier": "every list of commands, every schedule of the emulator and its tasks, every other host, every part of the output that has been read", "why_tests_cant": "The order of tasks is up to the scheduler, and the lists of commands and the other hosts are unbounded; the tests send a dozen commands one at a time.", "anchors": ["py/pica/pica/__init__.py: send_control (99-103), _read_packets (79-91)", "py/pica/pica/packets/uci.py: serialize, parse", "src/lib.rs: read_routine (240-281), write_routine (284-344)", "src/device.rs: receive_packet (1074-1126)"]}
{"id": "C112", "title": "The two directions of a connection do not hold each other up", "statement": "Until a connection ends, the next packet of its host can be taken and the next word of its device accepted, however many packets the host has left unread; and the next packet for the host can be written, however many the host has sent. What is handed to the emulator is what would be without the other direction, and what is written to the host is what would be without the other direction: the order in which the task serves them is of no effect.", "quantifier": "every list of packets of a host, every sequence of messages of its device, every order of the steps of reader and writer, with time stamps", "why_tests_cant": "It is about all interleavings of the two routines and about hosts that never read, which no test of the repository is.", "anchors": ["src/lib.rs: read_routine (240-281), write_routine (284-344)", "src/lib.rs: add_device (346-392)"]}
{"id": "C113", "title": "The structures of the Python package are those of the packet description", "statement": "RangingRoundControl, ResultReportConfig, the three packet headers, the controlees of a multicast update with and without keys, AoaMeasurement, CirValue and the packets in the report of a frame are read by the Python package from exactly the bytes that have the layout in uci_packets.pdl, leaving the rest, and are written with that layout, the bits without a meaning being 0. A frame report packet is read as the class whose layout its bytes have, else as a bare packet. Their size is the number of bytes written, or that without type and length for a class derived from a packet. The emulator reads the controlees that a Python host has written.", "quantifier": "every byte string and every object whose values fit in the fields", "why_tests_cant": "No message contains these classes, so no test and no command of the console reaches them; the claim is about every object and every input.", "anchors": ["py/pica/pica/packets/uci.py: RangingRoundControl, ResultReportConfig, CommonPacketHeader, ControlPacketHeader, DataPacketHeader", "py/pica/pica/packets/uci.py: Controlee (3100-3214), SessionUpdateControllerMulticastListCmdPayload (3270-3378)", "py/pica/pica/packets/uci.py: FrameReportTlvPacket, Rssi, Aoa, CirValue, Cir (5168-5455)", "src/uci_packets.pdl: 317-325, 419-425, 613-635, 1025-1070, 1423-1480"]}
{"id": "C114", "title": "Hosts influence each other by ranging, data and in-band stops only", "statement": "Take a host in two emulators, with any handles, whose devices are alike, for example just connected. If the same commands concern it in both (its packets, the rounds of its sessions, the in-band stops and its end), then each of them brings it the same packets, notifications, timers and in-band stops, except for the measurements and for data sent by others, whatever the other hosts, the anchors and the positions are; and its devices are alike again. What does not concern it sends it nothing but data, and whether one of its packets ends the emulator is the same in both. Measurements do depend on others, and an in-band stop lets one host end the ranging of another.", "quantifier": "every pair of reachable emulators and every pair of histories, including every enumeration order of the maps", "why_tests_cant": "It compares all pairs of histories; a test sees one. Handles, addresses, task identifiers and the orders of the maps differ between the two.", "anchors": ["src/lib.rs: pica_command (527-546), uci_packet, ranging (406-518), stop_controlee_ranging (562-586), disconnect", "src/device.rs: receive_packet, all command handlers", "src/session.rs: all methods"]}
{"id": "C115", "title": "The enumeration order of the maps is of no effect", "statement": "Two states that are the same up to the order in which devices, sessions and anchors are enumerated behave the same: a command panics in both or in neither, and if it does not, every host is sent the same packets in the same order, up to the order of the measurements inside one SESSION_INFO_NTF; the same notifications, timers and in-band stops are set off for every host; the events and the replies to clients are the same; and the states are the same again. So two emulators given the same commands in the same environment yield the same, although the hash maps of Rust are seeded at random. The order of the measurements does depend on it.", "quantifier": "every pair of reachable states that are the same up to order, every command and environment, every pair of histories with the maps reordered arbitrarily before any command", "why_tests_cant": "A test run has one seed per process and few devices; the claim is about all orders at all times.", "anchors": ["src/lib.rs: Pica (74-83), get_category (218-230), ranging (406-518), stop_controlee_ranging (562-586), create_anchor, destroy_anchor, disconnect", "src/device.rs: Device (sessions), core_device_reset (218-235), session_init, session_get_count"]}
{"id": "C116", "title": "The packet description is unambiguous", "statement": "For each of the 69 packets and 31 structures of the packet description: bytes that are that packet with some values for its fields and also with others have the same values in every field, nested ones included, whatever the reserved bits are; the rest that a packet leaves open is the same, too. A structure ends where its own fields say, whatever follows. No bytes are two different packets of those on the wire; the two forms of the response to SESSION_INIT have the same header but never the same length. The packets inside a frame report are told apart by their first byte.", "quantifier": "every packet and structure of the description, all values that fit the fields, all bytes", "why_tests_cant": "Two readings of the same bytes would have to be found among all values of all fields; generated code tests only that what it wrote it reads.", "anchors": ["src/uci_packets.pdl: 317-324, 419-425, 613-1499 (all packets and structures)"]}
{"id": "C117", "title": "The test lines of the packet description", "statement": "The packet description carries test lines: bytes that are said to be a packet. Two of the 60 are not well written. Of the other 58, just five (lines 851, 1123, 1305, 1458 and 1480) are their packet with any values for its fields at all. The reason is a header of seven bytes, of which the description has only four: without the three bytes after the fourth one, every other line is its packet, except those of the response and the notification of the multicast list update (1078, 1093): the former has no count of the list, the latter one byte before the count that the description does not have. A line that is a packet determines the values of the fields.", "quantifier": "every well-written test line, all values of the fields of its packet", "why_tests_cant": "That no values whatever give a line is not seen by trying some; and nothing in the repository runs these lines.", "anchors": ["src/uci_packets.pdl: 707-1501 (the test blocks), 640-645 (ControlPacket)"]}
{"id": "C118", "title": "Each host talks to a small machine", "statement": "What a host is told depends on very little: one bit (low power mode), the number of its sessions and, for each session identifier, the state, the type, the values of the parameters, the controlees and the number of rounds reported. There is a machine of just these, written as a table of one to eight lines for each of the 17 commands. It has at most one answer to a command, and one state after it; it has none just for parameters of a session whose type is not one of the two ranging types, and for an address set while MAC_ADDRESS_MODE is 1: there the emulator panics. Every command of a connected host that is answered by a response is answered by that of the machine, and the device is the machine afterwards. Everything else - unreadable packets, commands before the reset, data, other hosts, anchors, rounds - brings the host no response and leaves the machine as it is, except that a reported round counts and that another host can turn an ACTIVE session into an IDLE one. So the whole conversation of a host, from its connection on, is a conversation with the machine: it begins with a reset, and from then on every command is answered. This holds in every schedule of the emulator and its tasks: the responses on the way to a host are, in order, those of the machine to commands the host has sent, in order. And of what the Python host of the repository reads, the responses are the first answers of the machine, each read as an object of its class with the same fields (the responses to multicast list updates excepted, see C71).", "quantifier": "all histories of commands of all hosts and all schedules of the tasks, all commands with all parameters, all orders of the maps", "why_tests_cant": "It is a statement on whole conversations: that nothing not in the machine - tasks, sequence of notifications, queued data, other hosts, the order of the maps - ever has an effect on a response.", "anchors": ["src/device.rs: 218-935 (the commands), 975-1135 (receive_packet)", "src/session.rs: 46-162", "src/lib.rs: 346-585 (the event loop)", "src/app_config.rs: 150-517"]}
{"id": "C119", "title": "What one command sets off", "statement": "No command of the event loop puts more than one packet on the channel to a host, and only packets of that host and ranging rounds put one there; so a host is sent at once at most one packet per packet of its own and per round. A command schedules for a host at most one notification more than the host has sessions, at most 256 therefore. It starts at most one ranging task, and tasks that send at most 255 * 255 in-band stops, and these only if it is a packet of that host. Over a whole history the notifications scheduled for a host are at most two per packet of the host and per in-band stop, and one more for its connection. The rounds are needed in the bound: a host that has sent four packets can be sent any number of messages below 2^32 by the rounds of its session. Its reports are at most 2^32 - 1 each time a session is created, but the data of a peer are sent in every round, also when there are none, and these are unlimited.", "quantifier": "all histories of commands of all hosts, all packets, all orders of the maps", "why_tests_cant": "The bounds are on the worst case over all histories; the last one is an amortised bound, as a single reset sets off as many notifications as there are sessions.", "anchors": ["src/lib.rs: 346-640", "src/device.rs: 140-162, 218-235, 351-397, 572-876, 1074-1126", "src/session.rs: 65-88, 120-174"]}
{"id": "C120", "title": "Packets of different hosts can be mixed in any way", "statement": "Two packets of different hosts can be processed in either order: each brings the same packets and effects, and the state after both is the same. Whether one of them stops the emulator, and how, does not depend on the other. Hence any two sequences of packets in which every host sends the same packets in the same order, however they are mixed, have the same results packet by packet and lead to the same state. A packet and a request that creates or destroys an anchor can be exchanged, too. So can a packet of one host and the end of the connection of another, and the rounds of two hosts, in spite of the data and measurements they exchange, and hence any sequence of rounds be mixed. But a packet and a round cannot: what a round tells a host depends on whether a packet of its peer was processed before it.", "quantifier": "all states, all numbers of hosts, all sequences of packets and all ways to mix them", "why_tests_cant": "The number of ways to mix conversations is exponential, and a test sees the one that happens to be scheduled.", "anchors": ["src/lib.rs: 520-525, 549-558", "src/device.rs: 878-1126"]}
