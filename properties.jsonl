{"id": "C01", "title": "Tag construction accepts exactly the OpenWebNet tag alphabet", "statement": "Constructing a Tag (or Where, What, Dimension, Value) from a string succeeds exactly when every character is one of 0-9 or '#', and then str(tag) is the very string given; any other string raises InvalidTag. Constructing one from an int succeeds exactly when the int is not negative (and short enough for Python to print), and str(tag) is its decimal numeral.", "quantifier": "every Python string and every int", "why_tests_cant": "the set of strings is infinite; a test samples a handful of good and bad characters", "anchors": ["pyown/tags/base.py:is_valid_tag", "pyown/tags/base.py:Tag.__init__"]}
{"id": "C02", "title": "A tag with parameters is its value followed by its '#'-separated parameters", "statement": "For every TagWithParameters, str(t) equals t.tag followed by '#'+p for each p in t.parameters, t.tag and every parameter contain no '#', and t.with_parameter(p) (p a parameter of digits or a non-negative int) has the same tag and the parameter list extended by exactly p at the end; a parameter with a foreign character raises InvalidTag. A sequence of with_parameter calls appends its arguments in order.", "quantifier": "every valid tag string, every parameter, every length of parameter sequence", "why_tests_cant": "requires an argument over all splits of an arbitrary string, and induction over the number of parameters", "anchors": ["pyown/tags/base.py:TagWithParameters.tag", "pyown/tags/base.py:TagWithParameters.parameters", "pyown/tags/base.py:TagWithParameters.with_parameter"]}
{"id": "C03", "title": "Tag equality is a congruence with str and agrees with hashing", "statement": "Among tags and strings, == is reflexive, symmetric and transitive and holds exactly when the texts are equal, and equal objects have equal hashes, so tags and their texts are interchangeable as dict keys. (For ints == also holds when the numeral matches, so the hash contract is claimed for ints too.)", "quantifier": "all pairs and triples of tags, strings and ints, all hash functions", "why_tests_cant": "an equivalence-relation law over infinitely many triples; the hash clause quantifies over Python's hash functions", "anchors": ["pyown/tags/base.py:Tag.__eq__", "pyown/tags/base.py:Tag.__hash__"]}
{"id": "C04", "title": "WHO codes parse to exactly the listed systems and every system has a description", "statement": "Who(s) succeeds exactly for the 22 documented codes and raises ValueError for every other string; str(Who(s)) == s; distinct members have distinct codes; and who.name returns a description for every member, a different one for each.", "quantifier": "every string; every member", "why_tests_cant": "all other strings must be rejected; the description clause ranges over the whole table", "anchors": ["pyown/tags/who.py:Who", "pyown/tags/who.py:who_map"]}
{"id": "C05", "title": "Where.type classifies every documented light address form", "statement": "Where.type returns GENERAL exactly for '0', AMBIENT exactly for '00','100','1'..'9', LIGHT_POINT for area/point addresses (optionally on a local bus), GROUP for '#G', and LOCAL_BUS for addresses of a local bus; every address form documented for WHO=1 (docs/original/who1.md WHERE table) is classified without an exception.", "quantifier": "every valid WHERE string", "why_tests_cant": "the classification is a prefix-based cascade over an infinite set of strings with overlapping cases", "anchors": ["pyown/tags/where.py:Where.type"]}
{"id": "C06", "title": "parse_message accepts exactly well-formed frames", "statement": "parse_message(m) raises InvalidMessage exactly when m, stripped of surrounding whitespace, is not '*' followed by characters from 0-9 * # followed by '##', or when the terminator '##' does not occur exactly once (non-overlapping). InvalidTag, IndexError and NotImplementedError never escape.", "quantifier": "every Python string", "why_tests_cant": "the accepted language is infinite and is defined by a nested-quantifier regular expression plus a count", "anchors": ["pyown/messages/base.py:parse_message", "pyown/messages/base.py:BaseMessage._regex"]}
{"id": "C07", "title": "Frames are classified by the protocol grammar", "statement": "For every accepted frame the class of the result is the one the protocol's frame table prescribes from its tag structure: *#*1## ACK; *#*0## NACK; *WHO*WHAT*WHERE## NormalMessage; *#WHO*WHERE## StatusRequest; *#WHO*WHERE*DIM## (plain DIM) DimensionRequest; *#WHO*WHERE*#DIM*V..## (plain DIM) DimensionWriting; *#WHO*WHERE*DIM*V..## DimensionResponse; frames with none of these shapes GenericMessage; and the fields of the result are the corresponding tags. (Requests and writings whose DIM has '#' parameters are the subject of C69.)", "quantifier": "every accepted frame, any number of values, any tag lengths", "why_tests_cant": "eight overlapping regular expressions are tried in class-definition order; only a proof can show the order resolves every overlap as intended", "anchors": ["pyown/messages/base.py:parse_message", "pyown/messages/dimension.py:DimensionRequest._regex", "pyown/messages/dimension.py:DimensionWriting._regex", "pyown/messages/dimension.py:DimensionResponse._regex", "pyown/messages/normal.py:NormalMessage._regex", "pyown/messages/status.py:StatusRequest._regex", "pyown/messages/ack.py:ACK._regex", "pyown/messages/nack.py:NACK._regex"]}
{"id": "C08", "title": "Unknown WHO yields a GenericMessage", "statement": "As parse_message documents, a well-formed frame whose WHO is not a known code is returned as a GenericMessage; parse_message raises nothing but ParseError.", "quantifier": "every well-formed frame", "why_tests_cant": "quantifies over all unknown WHO codes and all frame shapes", "anchors": ["pyown/messages/base.py:parse_message", "pyown/messages/normal.py:NormalMessage.parse", "pyown/tags/who.py:Who"]}
{"id": "C09", "title": "Printing a parsed frame gives the frame back", "statement": "If parse_message(m) returns a message r then str(r) equals m without surrounding whitespace.", "quantifier": "every accepted frame", "why_tests_cant": "an unbounded round-trip law over all frames", "anchors": ["pyown/messages/base.py:parse_message", "pyown/messages/dimension.py:DimensionWriting.message", "pyown/messages/dimension.py:DimensionResponse.message", "pyown/messages/normal.py:NormalMessage.message"]}
{"id": "C10", "title": "Parsing a printed message gives the message back", "statement": "For every message built from valid tags, parse_message(str(msg)) == msg, with the same class.", "quantifier": "every message of every class, arbitrary valid tags and any number of values", "why_tests_cant": "an unbounded round-trip law over all messages", "anchors": ["pyown/messages/base.py:parse_message", "pyown/messages/normal.py:NormalMessage", "pyown/messages/status.py:StatusRequest", "pyown/messages/dimension.py:DimensionRequest", "pyown/messages/dimension.py:DimensionWriting", "pyown/messages/dimension.py:DimensionResponse"]}
{"id": "C11", "title": "Surrounding whitespace is irrelevant to parsing", "statement": "Adding or removing any amount of leading or trailing whitespace never changes what parse_message returns (or whether it fails).", "quantifier": "every string and every amount of whitespace", "why_tests_cant": "unbounded family of paddings", "anchors": ["pyown/messages/base.py:parse_message"]}
{"id": "C12", "title": "Message equality, hashing and copies", "statement": "== on messages is an equivalence relation that holds exactly when the classes and the tag texts agree; equal messages print to the same bytes; every message can be hashed consistently with ==.", "quantifier": "all pairs and triples of messages", "why_tests_cant": "an equivalence law over infinitely many messages", "anchors": ["pyown/messages/base.py:BaseMessage.__eq__", "pyown/messages/base.py:BaseMessage.__hash__", "pyown/messages/base.py:BaseMessage.tags"]}
{"id": "C13", "title": "A message built from valid tags is one ASCII frame", "statement": "For every message built from valid tags, msg.bytes never raises, starts with '*', ends with '##', uses only the bytes of 0-9 * #, and contains no earlier '##' (so it cannot smuggle a second frame onto the bus).", "quantifier": "every message, all valid tags", "why_tests_cant": "frame-injection safety quantifies over all tag contents", "anchors": ["pyown/messages/base.py:BaseMessage.bytes", "pyown/tags/base.py:is_valid_tag"]}
{"id": "C14", "title": "ACK and NACK are recognised only by their constant strings", "statement": "parse_message(m) is an ACK exactly when m is *#*1## up to surrounding whitespace, a NACK exactly when it is *#*0##; and ACK.parse/NACK.parse accept exactly their own tag list.", "quantifier": "every string; every tag list", "why_tests_cant": "negative clause over all other strings", "anchors": ["pyown/messages/ack.py:ACK.parse", "pyown/messages/nack.py:NACK.parse", "pyown/messages/base.py:parse_message"]}
{"id": "C15", "title": "A packet of complete frames is queued completely and in order", "statement": "When data_received gets a packet that is the concatenation of accepted frames in which '##' occurs only as the terminator (optionally with whitespace around them), exactly those messages are appended to the receive queue, in packet order, and nothing else.", "quantifier": "any number of frames per packet, any frames", "why_tests_cant": "unbounded packet length; interaction of split('##') with frames whose last tag ends in '#'", "anchors": ["pyown/protocol/protocol.py:OWNProtocol.data_received"]}
{"id": "C16", "title": "A bad packet is rejected atomically", "statement": "If any part of a packet is invalid, data_received raises and the receive queue is exactly as before: no partial delivery. Non-ASCII data raises UnicodeDecodeError; blank packets change nothing.", "quantifier": "every byte sequence, every queue content", "why_tests_cant": "ranges over every position of the fault in every packet", "anchors": ["pyown/protocol/protocol.py:OWNProtocol.data_received"]}
{"id": "C17", "title": "TCP segmentation does not change what is received", "statement": "The messages delivered depend only on the byte stream sent by the gateway and not on how TCP cuts it into packets.", "quantifier": "every byte stream and every segmentation of it", "why_tests_cant": "exponentially many segmentations of unboundedly long streams", "anchors": ["pyown/protocol/protocol.py:OWNProtocol.data_received"]}
{"id": "C18", "title": "Messages are read first-in first-out, none lost or duplicated", "statement": "Over any interleaving of packet arrivals and read_message calls, the sequence of messages returned to readers followed by the messages still queued equals the sequence of messages received.", "quantifier": "every history of arrivals and reads", "why_tests_cant": "induction over unbounded histories", "anchors": ["pyown/protocol/protocol.py:OWNProtocol.data_received", "pyown/protocol/protocol.py:OWNProtocol.receive_messages", "pyown/client/base.py:BaseClient.read_message"]}
{"id": "C19", "title": "Write back-pressure is respected under every schedule", "statement": "While the transport has paused writing, no send_message call writes to it, whatever the schedule of concurrent senders; each send_message writes its message's exact bytes at most once; when writing is not paused and every sender gets to run, all pending messages get written.", "quantifier": "every interleaving of senders, pause and resume events", "why_tests_cant": "concurrency: all schedules", "anchors": ["pyown/protocol/protocol.py:OWNProtocol.send_message", "pyown/protocol/protocol.py:OWNProtocol.pause_writing", "pyown/protocol/protocol.py:OWNProtocol.resume_writing"]}
{"id": "C20", "title": "Concurrent sends leave in call order", "statement": "Messages passed to send_message are written to the transport in the order of the calls.", "quantifier": "every interleaving of senders, pause and resume events", "why_tests_cant": "concurrency: all schedules", "anchors": ["pyown/protocol/protocol.py:OWNProtocol.send_message"]}
{"id": "C21", "title": "Connection futures are resolved at most once", "statement": "Over any history of connection_made / connection_lost callbacks, the connection-start future is completed once, with the first transport, and the connection-end future once, with the first loss; a repeated callback raises InvalidStateError and never overwrites the earlier outcome.", "quantifier": "every history of callbacks", "why_tests_cant": "induction over histories", "anchors": ["pyown/protocol/protocol.py:OWNProtocol.connection_made", "pyown/protocol/protocol.py:OWNProtocol.connection_lost"]}
{"id": "C22", "title": "The OPEN password answer is always a 32-bit number", "statement": "For every integer password and every nonce string, own_calc_pass returns the decimal numeral of a number in [0, 2^32).", "quantifier": "every int password (any size or sign), every nonce string of any length", "why_tests_cant": "unbounded nonces; arbitrary-precision Python ints", "anchors": ["pyown/auth/open.py:own_calc_pass"]}
{"id": "C23", "title": "own_calc_pass computes the documented 32-bit algorithm", "statement": "For every password below 2^32 and every nonce, the answer equals that of the 32-bit register algorithm: digits 1-3 rotate right by 7, 4, 3; digits 4-6 rotate left by 1, 5, 12; 7 and 8 permute the four bytes; 9 complements; 0 and other characters do nothing.", "quantifier": "every password in [0, 2^32), every nonce", "why_tests_cant": "2^32 passwords times unboundedly many nonces; Python ints are not 32-bit registers", "anchors": ["pyown/auth/open.py:own_calc_pass"]}
{"id": "C24", "title": "Different passwords never give the same OPEN answer", "statement": "For a fixed nonce containing a non-zero character, two different passwords below 2^32 give different answers (so the gateway accepts exactly one 32-bit password), and the password is computable from nonce and answer.", "quantifier": "every nonce with a non-zero character, all pairs of passwords", "why_tests_cant": "pairs of 32-bit values for each of infinitely many nonces", "anchors": ["pyown/auth/open.py:own_calc_pass"]}
{"id": "C25", "title": "Zeros in the nonce are irrelevant", "statement": "Inserting or deleting '0' characters anywhere in the nonce never changes the answer; for passwords below 2^32 a '#' prefix (or any other character that is not a digit, anywhere) changes nothing when the nonce has a non-zero digit; a nonce with only zeros (or empty) always gives '0'.", "quantifier": "every nonce, every password", "why_tests_cant": "unbounded insertions", "anchors": ["pyown/auth/open.py:own_calc_pass"]}
{"id": "C26", "title": "Hex/digit transcoding is lossless", "statement": "digits_to_hex(hex_to_digits(h)) == h.lower() for every hexadecimal string h, hex_to_digits doubles the length and outputs only decimal digits; conversely hex_to_digits(digits_to_hex(d)) == d exactly when d has even length and each pair of digits is at most 15; a character that is neither a hexadecimal digit nor a (non-ASCII) decimal digit raises ValueError and odd digit strings raise IndexError.", "quantifier": "every string", "why_tests_cant": "unbounded strings in both directions", "anchors": ["pyown/auth/hmac.py:hex_to_digits", "pyown/auth/hmac.py:digits_to_hex"]}
{"id": "C27", "title": "The HMAC strings follow the protocol's formula", "statement": "client_hmac computes the documented HMAC(Ra,Rb,A,B,Kab) and server_hmac the documented HMAC(Ra,Rb,Kab): keyed with Ra, over the concatenation of the listed parts in that order, Kab being the hexadecimal digest of the password, with the hash function selected by the algorithm, for whatever hash and HMAC functions; create_key returns two lower case hexadecimal digits per byte of the hash; an unknown algorithm raises ValueError.", "quantifier": "every key, password, identity, algorithm and every hash function", "why_tests_cant": "universally quantified over inputs and hash implementations", "anchors": ["pyown/auth/hmac.py:client_hmac", "pyown/auth/hmac.py:server_hmac", "pyown/auth/hmac.py:create_key"]}
{"id": "C28", "title": "HMAC authentication succeeds with a gateway that follows the protocol", "statement": "If the gateway announces SHA-1 or SHA-256, sends its random key, and confirms with the correct server HMAC in the documented digit encoding, client.start() completes.", "quantifier": "every password, random key, hash function", "why_tests_cant": "quantifies over all keys and digests", "anchors": ["pyown/client/base.py:BaseClient._authenticate_hmac", "pyown/auth/hmac.py:hex_to_digits"]}
{"id": "C29", "title": "start() succeeds only after a complete handshake", "statement": "client.start() returns only if the gateway's first message was an ACK and then either a second ACK, or a one-tag challenge answered by the OPEN answer and followed by an ACK, or a *98* announcement with a supported algorithm whose confirmation compared equal; in every other conversation it raises.", "quantifier": "every sequence of gateway messages and silences", "why_tests_cant": "all conversations of any content", "anchors": ["pyown/client/base.py:BaseClient.start", "pyown/client/base.py:BaseClient._authenticate_open", "pyown/client/base.py:BaseClient._authenticate_hmac"]}
{"id": "C30", "title": "Nothing is sent before the greeting, and the session type is sent first", "statement": "During start() the client writes nothing until it has read the gateway's ACK, the first frame it writes is *99*<session>##, and a frame derived from the password is written only after the gateway sent a challenge.", "quantifier": "every conversation", "why_tests_cant": "trace property over all conversations", "anchors": ["pyown/client/base.py:BaseClient.start", "pyown/client/session.py:SessionType.to_message"]}
{"id": "C31", "title": "An unsupported HMAC algorithm is refused with a NACK", "statement": "If the gateway announces *98*N## with N not 1 or 2 the client writes a NACK, writes nothing derived from the password, and start() raises InvalidAuthentication.", "quantifier": "every announced algorithm tag", "why_tests_cant": "all other tags", "anchors": ["pyown/client/base.py:BaseClient._authenticate_hmac", "pyown/auth/enum.py:AuthAlgorithm.from_string"]}
{"id": "C32", "title": "A silent gateway makes start() raise TimeoutError", "statement": "At whatever point of the handshake the gateway stops talking, start() raises TimeoutError and writes nothing further.", "quantifier": "every prefix of every conversation", "why_tests_cant": "all truncation points of all conversations", "anchors": ["pyown/client/base.py:BaseClient.start", "pyown/client/base.py:BaseClient.read_message"]}
{"id": "C33", "title": "Sending is allowed exactly on a started command session", "statement": "client.send_message(m) writes m's bytes exactly when the client is started, not closed, and is a command session or force is given; in every other state it raises InvalidSession and writes nothing. read_message on a client that is not started raises InvalidSession.", "quantifier": "every client state, session type, message, and history of start/close calls", "why_tests_cant": "state-machine property over histories", "anchors": ["pyown/client/base.py:BaseClient.send_message", "pyown/client/base.py:BaseClient.read_message", "pyown/client/base.py:BaseClient.close", "pyown/client/base.py:BaseClient.is_cmd_session"]}
{"id": "C34", "title": "A failed authentication leaves the session unusable", "statement": "After start() raised, the client cannot be used to send commands.", "quantifier": "every failing conversation", "why_tests_cant": "all failing conversations", "anchors": ["pyown/client/base.py:BaseClient.start", "pyown/client/base.py:BaseClient.send_message"]}
{"id": "C35", "title": "A command sends one frame and succeeds exactly on ACK", "statement": "item.send_normal_message(what) (and send_dimension_writing) writes exactly one frame *WHO*WHAT*WHERE## (or *#WHO*WHERE*#DIM*V..##), consumes exactly one reply, returns normally exactly when that reply is an ACK, raises ResponseError for any other reply and TimeoutError if none comes.", "quantifier": "every item, what, dimension, values, reply and queue content", "why_tests_cant": "all replies and states", "anchors": ["pyown/items/base.py:BaseItem.send_normal_message", "pyown/items/base.py:BaseItem.send_dimension_writing", "pyown/items/base.py:BaseItem._check_ack"]}
{"id": "C36", "title": "A status request yields exactly the replies before the closing ACK", "statement": "send_status_request writes one frame *#WHO*WHERE## and yields, in order, the normal messages received up to the first ACK, which it consumes and after which it reads nothing more; a NACK or another kind of message ends it with ResponseError, after yielding what came before.", "quantifier": "every reply sequence of any length", "why_tests_cant": "unbounded reply streams", "anchors": ["pyown/items/base.py:BaseItem.send_status_request", "pyown/items/base.py:BaseItem._check_nack"]}
{"id": "C37", "title": "A dimension request yields exactly the replies before the closing ACK; single requests return the first", "statement": "send_dimension_request behaves likewise for DimensionResponse replies, and the single-value getters built on it use the first reply, consume everything up to the ACK, and raise ResponseError if there was no data.", "quantifier": "every reply sequence of any length", "why_tests_cant": "unbounded reply streams", "anchors": ["pyown/items/base.py:BaseItem.send_dimension_request", "pyown/items/base.py:BaseItem._single_dim_req"]}
{"id": "C38", "title": "A command's outcome reflects the gateway's answer to that command", "statement": "Over any history of commands on one client, a command reports success exactly when the gateway acknowledged that very command.", "quantifier": "every history of commands, replies and timeouts", "why_tests_cant": "all histories, including late replies", "anchors": ["pyown/items/base.py:BaseItem.send_normal_message", "pyown/client/base.py:BaseClient.read_message"]}
{"id": "C39", "title": "Each high-level command sends the frame the protocol documents", "statement": "turn_on/turn_off/timed/blink/percentage commands of lights, stop/up/down of automations, all camera commands, and the Stop&Go and actuator commands each write exactly the documented frame for their action, for every address.", "quantifier": "every command and every address", "why_tests_cant": "ranges over all addresses; ties the whole command table to the documentation", "anchors": ["pyown/items/lighting/base.py:WhatLight", "pyown/items/lighting/light.py:Light", "pyown/items/lighting/dimmer.py:Dimmer", "pyown/items/automation/automation.py:WhatAutomation", "pyown/items/camera/camera.py:WhatCamera", "pyown/items/energy/energy.py:EnergyManagement", "pyown/items/energy/stop_go.py:StopGo"]}
{"id": "C40", "title": "Dimmer commands with a speed or amount send the documented frame", "statement": "Dimmer.turn_on(speed)/turn_off(speed) with speed in 0..255 send *1*1#speed*where## / *1*0#speed*where##; up_percent/down_percent with a value (and speed) send *1*30#v#s*where## / *1*31#v#s*where##; out-of-range speeds and values raise ValueError and send nothing.", "quantifier": "every int argument and every address", "why_tests_cant": "all ints", "anchors": ["pyown/items/lighting/dimmer.py:Dimmer.turn_on", "pyown/items/lighting/dimmer.py:Dimmer.turn_off", "pyown/items/lighting/dimmer.py:Dimmer.up_percent", "pyown/items/lighting/dimmer.py:Dimmer.down_percent", "pyown/tags/base.py:TagWithParameters.with_parameter"]}
{"id": "C41", "title": "Range-checked light settings", "statement": "set_hsv, set_white_temperature and temporization_command send exactly the documented dimension-writing frame, with exactly the given numbers, when the arguments are in the documented ranges, and otherwise raise without sending anything.", "quantifier": "every int argument and every address", "why_tests_cant": "all ints, including negative ones", "anchors": ["pyown/items/lighting/dimmer.py:Dimmer.set_hsv", "pyown/items/lighting/dimmer.py:Dimmer.set_white_temperature", "pyown/items/lighting/base.py:BaseLight.temporization_command"]}
{"id": "C42", "title": "Parameterised energy commands send the documented frame", "statement": "start_sending_daily_totalizers_hourly(day, month) sends *18*57#month#day*where## and the other reporting, forcing and reset commands send their documented frame for every argument; negative arguments raise InvalidTag and send nothing.", "quantifier": "every int argument and every address", "why_tests_cant": "all ints", "anchors": ["pyown/items/energy/energy.py:EnergyManagement.start_sending_daily_totalizers_hourly", "pyown/items/energy/energy.py:EnergyManagement.force_actuator_on", "pyown/items/energy/energy.py:EnergyManagement.reset_totalizers", "pyown/items/energy/enums.py:WhatEnergy.with_parameter"]}
{"id": "C43", "title": "Camera.display_dial accepts exactly the 4x4 grid", "statement": "display_dial(x, y) sends *7*3xy## when 1<=x,y<=4 and raises ValueError without sending otherwise.", "quantifier": "all pairs of ints", "why_tests_cant": "all ints", "anchors": ["pyown/items/camera/camera.py:Camera.display_dial", "pyown/items/camera/camera.py:dial_map"]}
{"id": "C44", "title": "get_item returns one item per (WHO, WHERE)", "statement": "Over any history of get_item calls, two successful calls return the same object exactly when their WHO and WHERE are equal as text; the object has the class registered for the WHO; a call that raises leaves the cache unchanged.", "quantifier": "every history of get_item calls", "why_tests_cant": "induction over histories of a cache", "anchors": ["pyown/client/client.py:Client.get_item", "pyown/items/utils.py:ITEM_TYPES"]}
{"id": "C45", "title": "ACK, NACK, unknown and unsupported events are skipped without effect", "statement": "In the event loop an ACK, a NACK, a GenericMessage, or a message whose WHO has no item class creates no item and calls no callback, and the loop goes on with the next message.", "quantifier": "every queue of events", "why_tests_cant": "all event sequences", "anchors": ["pyown/client/client.py:Client.loop", "pyown/client/client.py:Client.get_item"]}
{"id": "C46", "title": "No event received from the gateway can stop the event loop", "statement": "Whatever messages the gateway sends, loop() keeps processing the following ones.", "quantifier": "every sequence of events and any callbacks", "why_tests_cant": "all event sequences", "anchors": ["pyown/client/client.py:Client.loop", "pyown/items/energy/energy.py:EnergyManagement.__init__", "pyown/items/energy/energy.py:EnergyManagement.get_type"]}
{"id": "C47", "title": "Every registered callback of the event's item class is called once, in registration order", "statement": "For a dispatched light status, automation status, or gateway/energy dimension event, exactly the callbacks registered for that event are started, each once, in registration order, with the cached item and the decoded values.", "quantifier": "every registration history and every event, on every supported Python version", "why_tests_cant": "all registration histories and all events; depends on interpreter semantics", "anchors": ["pyown/client/client.py:Client._dispatch_callbacks", "pyown/items/base.py:BaseItem.who", "pyown/items/base.py:BaseItem._create_tasks", "pyown/items/lighting/base.py:BaseLight.call_callbacks", "pyown/items/automation/automation.py:Automation.call_callbacks"]}
{"id": "C48", "title": "Callbacks for different events and item classes do not interfere", "statement": "Registering a callback for one event never changes which callbacks another event triggers, and callbacks registered on a class are only ever called with items of that class.", "quantifier": "all registration histories", "why_tests_cant": "all histories; class-attribute sharing", "anchors": ["pyown/items/lighting/base.py:BaseLight._event_callbacks", "pyown/items/automation/automation.py:Automation._event_callbacks", "pyown/items/gateway/gateway.py:Gateway.register_callback", "pyown/items/energy/energy.py:EnergyManagement._event_callbacks"]}
{"id": "C49", "title": "An error while dispatching one event does not affect others", "statement": "If decoding an event or calling its callbacks raises, no exception leaves the dispatcher, the item cache keeps working, and later events are dispatched as if the bad event had not occurred.", "quantifier": "every event sequence with faults at any position", "why_tests_cant": "all fault positions", "anchors": ["pyown/client/client.py:Client._dispatch_callbacks"]}
{"id": "C50", "title": "Light dimension events reach the matching callback", "statement": "A light dimension event reaches the callback registered for that kind of event: temporization (dimension 2), luminosity (dimension 1), HSV (dimension 12), white temperature (dimension 14), as documented and as used by the corresponding requests.", "quantifier": "every dimension event with any values", "why_tests_cant": "all values and dimensions", "anchors": ["pyown/items/lighting/base.py:BaseLight.call_callbacks", "pyown/items/lighting/base.py:BaseLight.temporization_request", "pyown/items/lighting/dimmer.py:Dimmer.request_current_brightness_speed", "pyown/items/lighting/dimmer.py:Dimmer.request_current_white_temperature"]}
{"id": "C51", "title": "Energy callbacks fire for the events they are registered for", "statement": "A callback registered with on_instant_power, on_energy_unit_totalizer, ..., on_daily_totalizers_hourly, on_monthly_*, on_energy_unit_per_month, on_totalizer_since_reset is called with the decoded numbers whenever the gateway sends the corresponding documented event.", "quantifier": "every event with any parameters and values", "why_tests_cant": "all parameters and values", "anchors": ["pyown/items/energy/energy.py:EnergyManagement.call_callbacks", "pyown/items/energy/enums.py:DimensionEnergy"]}
{"id": "C52", "title": "Gateway callbacks receive the item and the decoded value", "statement": "A callback registered with Gateway.register_callback(what, cb) is called as cb(item, value) with the value the corresponding getter returns.", "quantifier": "every gateway event, every value", "why_tests_cant": "all values of all eleven dimensions", "anchors": ["pyown/items/gateway/gateway.py:Gateway.call_callbacks", "pyown/items/gateway/gateway.py:Gateway.register_callback"]}
{"id": "C53", "title": "loop() ends when the connection drops", "statement": "If the connection to the gateway is lost or closed while loop() waits for events, loop() returns.", "quantifier": "every schedule of arrivals, losses and closes", "why_tests_cant": "liveness over all schedules", "anchors": ["pyown/client/client.py:Client.loop", "pyown/protocol/protocol.py:OWNProtocol.connection_lost", "pyown/client/base.py:BaseClient.close"]}
{"id": "C54", "title": "Dates survive the round trip through the gateway format", "statement": "For every date d, the values written by set_date(d), read back by get_date, give d; day of the week, day and month are two digits, the year is plain decimal.", "quantifier": "every date of the proleptic Gregorian calendar (years 1..9999)", "why_tests_cant": "3.6 million dates; unbounded formatting lemma", "anchors": ["pyown/items/gateway/gateway.py:Gateway.set_date", "pyown/items/gateway/gateway.py:Gateway.get_date"]}
{"id": "C55", "title": "set_date sends the true day of the week", "statement": "The weekday field written by set_date is the day of the week of the date in the Gregorian calendar with Sunday=00 ... Saturday=06.", "quantifier": "every date", "why_tests_cant": "calendar arithmetic over all dates", "anchors": ["pyown/items/gateway/gateway.py:Gateway.set_date"]}
{"id": "C56", "title": "Times with a timezone survive the round trip through the gateway format", "statement": "For every time with a whole-hour UTC offset, the values written by set_time(t), read back by get_time, give t, and the timezone field is the documented three digits (sign, two-digit hours).", "quantifier": "every time of day and every UTC offset", "why_tests_cant": "all offsets including negative ones", "anchors": ["pyown/items/gateway/gateway.py:Gateway.set_time", "pyown/items/gateway/gateway.py:Gateway.get_time", "pyown/items/gateway/gateway.py:Gateway._tz_to_own_tz", "pyown/items/gateway/gateway.py:Gateway._parse_own_timezone"]}
{"id": "C57", "title": "Date-times survive the round trip through the gateway format", "statement": "For every timezone-aware datetime, the values written by set_datetime, read back by get_datetime, give the datetime, and they are the documented eight fields.", "quantifier": "every datetime", "why_tests_cant": "all datetimes", "anchors": ["pyown/items/gateway/gateway.py:Gateway.set_datetime", "pyown/items/gateway/gateway.py:Gateway.get_datetime"]}
{"id": "C58", "title": "IP address and netmask decode exactly", "statement": "get_ip returns the IPv4 address with the four transmitted octets exactly when there are four numeric values all at most 255 and raises ValueError otherwise; get_netmask prints the four numbers in dotted form without leading zeros.", "quantifier": "every list of values", "why_tests_cant": "all value lists", "anchors": ["pyown/items/gateway/gateway.py:Gateway.get_ip", "pyown/items/gateway/gateway.py:Gateway.get_netmask"]}
{"id": "C59", "title": "The MAC address is reported in the usual hexadecimal form", "statement": "get_macaddress turns the six transmitted decimal octets into aa:bb:cc:dd:ee:ff hexadecimal notation.", "quantifier": "every list of six octets", "why_tests_cant": "256^6 inputs", "anchors": ["pyown/items/gateway/gateway.py:Gateway.get_macaddress"]}
{"id": "C60", "title": "Unknown gateway models are reported as GENERIC, known ones exactly", "statement": "get_model returns the listed model for each documented code and GENERIC for every other value; it never raises for a reply with a value.", "quantifier": "every value string", "why_tests_cant": "all other strings", "anchors": ["pyown/items/gateway/gateway.py:GatewayModel._missing_", "pyown/items/gateway/gateway.py:Gateway.get_model"]}
{"id": "C61", "title": "Uptime and version getters decode exactly", "statement": "get_uptime returns days*86400+hours*3600+minutes*60+seconds seconds for any four numeric values, and the version getters join the first three values with dots; missing values raise IndexError, non-numeric ones ValueError, and more than 999999999 days OverflowError.", "quantifier": "every list of values", "why_tests_cant": "all value lists", "anchors": ["pyown/items/gateway/gateway.py:Gateway.get_uptime", "pyown/items/gateway/gateway.py:Gateway.get_firmware", "pyown/items/gateway/gateway.py:Gateway.get_kernel_version", "pyown/items/gateway/gateway.py:Gateway.get_distribution_version"]}
{"id": "C62", "title": "An energy item is typed by its address and bad addresses raise InvalidTag", "statement": "EnergyManagement(client, where) succeeds exactly for 1<digits> (Stop&Go), 5<digits> (power meter) and 7<digits>#0... (actuator), get_type returns that type, and every other address raises InvalidTag.", "quantifier": "every valid WHERE string", "why_tests_cant": "infinite set of addresses", "anchors": ["pyown/items/energy/energy.py:EnergyManagement.get_type", "pyown/items/energy/energy.py:EnergyManagement.__init__"]}
{"id": "C63", "title": "Stop&Go status requests decode the documented status mask", "statement": "request_status returns, for the 13-bit mask b13...b1 sent by the gateway, open=b1, failure=b2, ..., power_fail_up=b13.", "quantifier": "every mask", "why_tests_cant": "2^13 masks and all reply sequences", "anchors": ["pyown/items/energy/stop_go.py:StopGo.request_status"]}
{"id": "C64", "title": "Stop&Go status events decode the documented status mask", "statement": "The StopGoStatus passed to on_stop_go_status callbacks has open=b1, ..., power_fail_up=b13 for the transmitted mask b13...b1, and agrees with request_status on the same message.", "quantifier": "every mask", "why_tests_cant": "2^13 masks", "anchors": ["pyown/items/energy/energy.py:EnergyManagement.call_callbacks", "pyown/items/energy/stop_go.py:StopGo.request_status"]}
{"id": "C65", "title": "Single-bit Stop&Go replies update exactly their own field, last one wins", "statement": "Over a reply stream of single-bit dimensions 251..263, each field of the resulting status is the value of the last reply for its dimension, and None if there was none; an unknown dimension raises InvalidMessage.", "quantifier": "every reply stream of any length", "why_tests_cant": "unbounded streams, all orders", "anchors": ["pyown/items/energy/stop_go.py:StopGo.request_status"]}
{"id": "C66", "title": "Actuator info decodes position by position", "statement": "get_actuators_info maps the first six characters of the value to disabled, forcing, threshold, protection, phase (true iff non-zero) and advanced (true iff '1'), and raises IndexError exactly when the value is shorter and numeric.", "quantifier": "every value string", "why_tests_cant": "all strings", "anchors": ["pyown/items/energy/energy.py:EnergyManagement.get_actuators_info"]}
{"id": "C67", "title": "Parsing time is polynomial in the packet size", "statement": "The number of character tests parse_message makes is bounded by a polynomial, in fact linearly, in the length of the input; so is the cost of a whole packet that read_packet accepts.", "quantifier": "every input string of every length", "why_tests_cant": "worst-case cost over all inputs", "anchors": ["pyown/messages/base.py:BaseMessage._regex", "pyown/messages/base.py:parse_message"]}
{"id": "C68", "title": "Dimmer and automation status queries decode every reply", "statement": "Light.get_status yields (where, True/False) for each ON/OFF reply and skips others; Dimmer.get_status yields 10*level; Automation.get_status yields the state for replies 0,1,2 and raises ValueError on others; order is preserved.", "quantifier": "every reply stream", "why_tests_cant": "unbounded reply streams", "anchors": ["pyown/items/lighting/light.py:Light.get_status", "pyown/items/lighting/dimmer.py:Dimmer.get_status", "pyown/items/automation/automation.py:Automation.get_status"]}
{"id": "C69", "title": "Frames with a parameterised DIMENSION are classified by direction", "statement": "A frame *#WHO*WHERE*DIM#P..## (no values) is a DimensionRequest, *#WHO*WHERE*#DIM#P..*V..## is a DimensionWriting and *#WHO*WHERE*DIM#P..*V..## is a DimensionResponse, with the parameters kept in the dimension.", "quantifier": "every known WHO, every WHERE, every parameterised dimension and any number of values", "why_tests_cant": "the three forms differ only in one '#' and in the number of tags; all parameter lists must be covered", "anchors": ["pyown/messages/base.py:parse_message", "pyown/messages/dimension.py:DimensionRequest._regex", "pyown/messages/dimension.py:DimensionWriting._regex", "pyown/messages/dimension.py:DimensionResponse._regex"]}
{"id": "C71", "title": "get_netinfo gives the network of the gateway", "statement": "get_netinfo asks for the address and the mask, and returns the network address (the address with the host bits cleared) and the prefix length for every contiguous net mask or host mask; any other mask raises ValueError.", "quantifier": "every address, every mask, every conversation", "why_tests_cant": "2^32 addresses times 2^32 masks", "anchors": ["pyown/items/gateway/gateway.py:Gateway.get_netinfo", "pyown/items/gateway/gateway.py:Gateway.get_ip", "pyown/items/gateway/gateway.py:Gateway.get_netmask"]}
{"id": "C70", "title": "Actuator info is readable from the documented reply", "statement": "For the documented reply *#18*7N#0*71*V1*V2*V3*V4*V5*V6## (six values of one digit each) get_actuators_info returns the six flags in that order.", "quantifier": "every digit in every one of the six values", "why_tests_cant": "all replies", "anchors": ["pyown/items/energy/energy.py:EnergyManagement.get_actuators_info"]}
{"id": "C73", "title": "Energy getters ask the documented question and return the transmitted number", "statement": "get_active_power, get_energy_unit_totalizer, get_energy_unit_per_month, the two partial totalizers, get_totalizers and get_differential_current_level each write their documented request (113, 51, 52#Y#M, 53, 54, 72#N, 73) once, wait for the end of the reply and return the number in the first reply, exactly below 2^53 and rounded to the nearest double above; values that are missing or not numbers raise IndexError or ValueError.", "quantifier": "every address, month, year and totalizer number, every conversation, every value of any length", "why_tests_cant": "unbounded values, all reply streams", "anchors": ["pyown/items/energy/energy.py:EnergyManagement.get_active_power", "pyown/items/energy/energy.py:EnergyManagement.get_energy_unit_totalizer", "pyown/items/energy/energy.py:EnergyManagement.get_energy_unit_per_month", "pyown/items/energy/energy.py:EnergyManagement.get_partial_totalizer_current_month", "pyown/items/energy/energy.py:EnergyManagement.get_partial_totalizer_current_day", "pyown/items/energy/energy.py:EnergyManagement.get_totalizers", "pyown/items/energy/energy.py:EnergyManagement.get_differential_current_level"]}
{"id": "C74", "title": "Dimension queries of lights write the documented request and decode every reply", "statement": "temporization_request, request_current_hsv, request_current_white_temperature, request_current_brightness_speed and request_working_time_lamp write *#1*WHERE*DIM## with the documented DIM, and yield the numbers of every reply in order.", "quantifier": "every address, every conversation of any length", "why_tests_cant": "unbounded reply streams", "anchors": ["pyown/items/lighting/base.py:BaseLight.temporization_request", "pyown/items/lighting/base.py:BaseLight.request_working_time_lamp", "pyown/items/lighting/dimmer.py:Dimmer.request_current_hsv", "pyown/items/lighting/dimmer.py:Dimmer.request_current_white_temperature", "pyown/items/lighting/dimmer.py:Dimmer.request_current_brightness_speed"]}
{"id": "C75", "title": "Energy amounts are returned in the unit the documentation promises", "statement": "get_totalizers, get_energy_unit_totalizer and the per-month and per-day getters return kWh (Wh on the wire divided by 1000), as their docstrings say.", "quantifier": "every amount of energy", "why_tests_cant": "all amounts", "anchors": ["pyown/items/energy/energy.py:EnergyManagement.get_totalizers", "pyown/items/energy/energy.py:EnergyManagement.get_energy_unit_totalizer"]}
{"id": "C72", "title": "Light status callbacks get True exactly when the light is on", "statement": "A callback registered with Light.on_status_change (or Dimmer) is called with True for every event that says the light is on - WHAT 1, a dimming level 2..10 or a timed switching-on 11..18 - and with False when it is off (WHAT 0).", "quantifier": "every light event, every address, every history", "why_tests_cant": "all WHAT values and all histories", "anchors": ["pyown/items/lighting/base.py:BaseLight.call_callbacks", "pyown/items/lighting/base.py:BaseLight.on_status_change"]}
{"id": "C76", "title": "A malformed packet costs only itself", "statement": "After a packet that cannot be decoded or parsed, the packets that follow on the same connection are still received.", "quantifier": "every sequence of packets with any malformed ones among them", "why_tests_cant": "all packet sequences; depends on what the event loop does with an exception from data_received", "anchors": ["pyown/protocol/protocol.py:OWNProtocol.data_received", "pyown/client/base.py:BaseClient._exception_handler"]}
{"id": "C77", "title": "A callback that raises does not keep the other callbacks from being called", "statement": "If calling one of the callbacks registered for an event raises, the other callbacks registered for the same event are still started.", "quantifier": "every list of callbacks, every subset that raises", "why_tests_cant": "all registration orders and all subsets of failing callbacks", "anchors": ["pyown/items/base.py:BaseItem._create_tasks", "pyown/client/client.py:Client._dispatch_callbacks"]}
{"id": "C78", "title": "loop() runs only on a connected event session", "statement": "loop() raises InvalidSession, without handling anything, on a command session or a client that is not connected; on an event session whose connection was lost it returns; on a connected event session it handles the events already received and waits for more.", "quantifier": "every state of a client", "why_tests_cant": "all reachable states", "anchors": ["pyown/client/client.py:Client.loop"]}
{"id": "C79", "title": "Camera callbacks are called for camera events", "statement": "A callback registered with Camera.on_status_change is called for every camera event (WHO 7) with WHAT 0 or 9.", "quantifier": "every camera event, every history", "why_tests_cant": "all histories of registrations and events", "anchors": ["pyown/items/utils.py:ITEM_TYPES", "pyown/items/camera/camera.py:Camera.call_callbacks", "pyown/items/camera/camera.py:Camera.on_status_change", "pyown/client/client.py:Client.get_item"]}
{"id": "C80", "title": "Requests made at the same time on one client do not get each other's answers", "statement": "When several tasks send commands and queries through the same client and the gateway answers them in the order sent, every request that ends received exactly the messages the gateway sent for it and reports how its own answer ended.", "quantifier": "every set of requests, every interleaving of sending, arrival and resumption of the waiting tasks", "why_tests_cant": "unboundedly many tasks and interleavings", "anchors": ["pyown/items/base.py:BaseItem.send_normal_message", "pyown/items/base.py:BaseItem.send_status_request", "pyown/items/base.py:BaseItem.send_dimension_request", "pyown/client/base.py:BaseClient.read_message", "pyown/protocol/protocol.py:OWNProtocol.receive_messages"]}
{"id": "C81", "title": "Message objects do not change", "statement": "The text and the tags of a message object stay what they were when it was made, whatever the program does with the lists it passed in or got back; changing the list returned by .tags changes no message.", "quantifier": "every sequence of making messages, reading tags and mutating lists", "why_tests_cant": "aliasing over all sequences of operations", "anchors": ["pyown/messages/base.py:GenericMessage", "pyown/messages/base.py:BaseMessage.tags", "pyown/messages/base.py:parse_message"]}
{"id": "C82", "title": "A client that is started again behaves like a new one", "statement": "After any history of start, close, send and read calls, start() on a new connection has the same outcome and writes the same frames as on a client that was never used, and no message of an earlier connection is ever read.", "quantifier": "every history of calls, every conversation on the new connection", "why_tests_cant": "all histories", "anchors": ["pyown/client/base.py:BaseClient.start", "pyown/client/base.py:BaseClient.close"]}
{"id": "C83", "title": "close() leaves no connection open", "statement": "After close(), no connection that the client has ever opened is still open.", "quantifier": "every history of start, close, send and read calls", "why_tests_cant": "all histories of calls, with every way a start can fail", "anchors": ["pyown/client/base.py:BaseClient.start", "pyown/client/base.py:BaseClient.close"]}
{"id": "C84", "title": "A query that was given up does not disturb the next command", "statement": "Whether a query is read to its end, left early by its consumer, or ended by a reply that cannot be decoded, the next command reports the gateway's answer to that command.", "quantifier": "every query, every reply stream, every point at which it is left", "why_tests_cant": "unbounded reply streams", "anchors": ["pyown/items/base.py:BaseItem.send_status_request", "pyown/items/base.py:BaseItem.send_dimension_request", "pyown/items/automation/automation.py:Automation.get_status"]}
{"id": "C85", "title": "Callbacks get items of the client given to loop()", "statement": "The item handed to a callback is bound to the client given to loop() (the event client itself by default), unless get_item was called before for the same WHO and WHERE with another client, in which case it keeps that one; get_item returns an item bound to the client it was given unless the item already existed.", "quantifier": "every history of registrations, packets, get_item calls and loop runs", "why_tests_cant": "all histories; depends on the cache across the whole life of the client", "anchors": ["pyown/client/client.py:Client.get_item", "pyown/client/client.py:Client.loop", "pyown/client/client.py:Client._dispatch_callbacks"]}
{"id": "C86", "title": "parse() of a message class accepts exactly the tags of that kind of frame", "statement": "Calling parse(tags) on NormalMessage, StatusRequest, DimensionRequest, DimensionWriting, DimensionResponse or GenericMessage returns the message with these tags exactly when they are the tags of a frame of that kind, and otherwise raises InvalidMessage or InvalidTag.", "quantifier": "every list of tags", "why_tests_cant": "all lists of all texts", "anchors": ["pyown/messages/normal.py:NormalMessage.parse", "pyown/messages/status.py:StatusRequest.parse", "pyown/messages/dimension.py:DimensionRequest.parse", "pyown/messages/dimension.py:DimensionWriting.parse", "pyown/messages/base.py:GenericMessage.parse"]}
{"id": "C87", "title": "A failed start() raises TimeoutError or one of the library's own exceptions", "statement": "If start() does not return normally, it raises TimeoutError when the gateway cannot be reached or does not answer, and one of the library's own exceptions (a subclass of OWNException) otherwise; no other exception escapes.", "quantifier": "every password, every session type, every gateway and every sequence of well-formed frames it may send", "why_tests_cant": "all gateways, all conversations", "anchors": ["pyown/client/base.py:BaseClient.start", "pyown/client/base.py:BaseClient._authenticate_open", "pyown/client/base.py:BaseClient._authenticate_hmac", "pyown/exceptions.py:OWNException"]}
{"id": "C88", "title": "With OPEN authentication start() succeeds exactly with the gateway's password", "statement": "Against a gateway that uses the OPEN algorithm with a password below 2^32, sends a challenge with a non-zero digit and answers in time, start() returns normally if and only if the client's password is the gateway's, and raises InvalidAuthentication otherwise.", "quantifier": "every pair of numeric passwords below 2^32, every decimal challenge that is not all zeros, every conversation in which the gateway follows the protocol", "why_tests_cant": "all pairs of passwords and all challenges, with a gateway that reacts to what the client wrote", "anchors": ["pyown/client/base.py:BaseClient.start", "pyown/client/base.py:BaseClient._authenticate_open", "pyown/auth/open.py:own_calc_pass"]}
{"id": "C89", "title": "Devices report the state they were last set to", "statement": "In a house whose gateway acknowledges orders, carries them out on the devices the address reaches, and answers status requests with one frame per device, any program of turn_on, turn_off, set level, stop, up, down and get_status calls on any lights, dimmers and automations, at any addresses, gets from each get_status exactly the states the orders given so far call for, provided no call times out.", "quantifier": "every house (devices, addressing, initial state), every program of calls, every conversation in which the gateway follows the protocol", "why_tests_cant": "all programs and all houses, end to end through sending, parsing, reply streams and decoding", "anchors": ["pyown/items/lighting/light.py:Light.get_status", "pyown/items/lighting/dimmer.py:Dimmer.get_status", "pyown/items/automation/automation.py:Automation.get_status", "pyown/items/base.py:BaseItem.send_normal_message", "pyown/items/base.py:BaseItem.send_status_request", "pyown/messages/base.py:parse_message"]}
{"id": "C90", "title": "Cancelling loop() and calling it again loses no event and repeats none", "statement": "Whatever calls of loop() are made on an event client, one after the other or at the same time, and whenever they are resumed or cancelled, every message received is handled exactly once, in the order of arrival, with the callbacks registered at that moment, or is still waiting; cancelling a loop changes nothing else, and a loop called on a connected client handles all that is waiting.", "quantifier": "every history of packets, registrations, get_item calls, loops called, resumed and cancelled, and ends of the connection", "why_tests_cant": "all histories and all points of cancellation", "anchors": ["pyown/client/client.py:Client.loop", "pyown/client/client.py:Client._dispatch_callbacks", "pyown/client/base.py:BaseClient.read_message", "pyown/protocol/protocol.py:OWNProtocol.receive_messages"]}
{"id": "C91", "title": "What start() writes does not give the password away", "statement": "Nobody who reads the frames exchanged by one start(), the gateway included, can tell from them what the password of the client is.", "quantifier": "every password, every gateway and everything it may send", "why_tests_cant": "a statement about what can be computed from all conversations", "anchors": ["pyown/client/base.py:BaseClient.start", "pyown/client/base.py:BaseClient._authenticate_open", "pyown/client/base.py:BaseClient._authenticate_hmac", "pyown/auth/open.py:own_calc_pass"]}
{"id": "C92", "title": "A successful start() shows that the gateway knows the password", "statement": "start() on a client with a password returns normally only if the gateway proves that it knows this password.", "quantifier": "every password, every gateway", "why_tests_cant": "all gateways, including ones that do not know the password", "anchors": ["pyown/client/base.py:BaseClient.start", "pyown/client/base.py:BaseClient._authenticate_open", "pyown/client/base.py:BaseClient._authenticate_hmac"]}
{"id": "C93", "title": "start(), commands and single-value getters wait for a bounded number of messages", "statement": "There is a number of messages, the same for all gateways, after which start(), a command, and a getter that returns one value have ended, so that their duration is at most this number of read timeouts.", "quantifier": "every gateway, every conversation", "why_tests_cant": "unboundedly long conversations", "anchors": ["pyown/client/base.py:BaseClient.start", "pyown/items/base.py:BaseItem.send_normal_message", "pyown/items/base.py:BaseItem.send_dimension_writing", "pyown/items/base.py:BaseItem._single_dim_req"]}
{"id": "C94", "title": "A table kept by a light status callback shows the last status received for each light", "statement": "A program that registers one Light.on_status_change callback before its first loop() and stores each status under the address of the item it is called with has, whenever no received message is waiting, under every address the last status the gateway reported for it, whatever else arrives and whatever loops are called and cancelled.", "quantifier": "every history of packets, loops and cancellations, every address", "why_tests_cant": "all histories of events", "anchors": ["pyown/client/client.py:Client.loop", "pyown/client/client.py:Client._dispatch_callbacks", "pyown/items/lighting/base.py:BaseLight.call_callbacks", "pyown/items/lighting/base.py:BaseLight.on_status_change"]}
{"id": "C95", "title": "Messages written by one protocol object are received by another as they were", "statement": "If the messages m1, ..., mn are sent on one side of a connection, the other side receives m1, ..., mn: the same classes with the same tags, in the same order.", "quantifier": "every list of messages, every grouping into packets", "why_tests_cant": "all messages, all groupings", "anchors": ["pyown/protocol/protocol.py:OWNProtocol.send_message", "pyown/protocol/protocol.py:OWNProtocol.data_received", "pyown/messages/base.py:BaseMessage.bytes", "pyown/messages/base.py:parse_message"]}
{"id": "C96", "title": "Requests made at the same time are all served", "statement": "When several tasks wait for messages on one client, every message received is taken by exactly one of them, in the order of arrival; as long as somebody waits no message is left lying without a waiter having been woken for it; and every task that started ends at most once, having been given a message or its timeout.", "quantifier": "every schedule of arrivals, tasks starting, being resumed and expiring", "why_tests_cant": "all interleavings of any number of tasks", "anchors": ["pyown/client/base.py:BaseClient.read_message", "pyown/protocol/protocol.py:OWNProtocol.receive_messages", "pyown/protocol/protocol.py:OWNProtocol.data_received"]}
{"id": "C97", "title": "Clients in one process do not interfere, except through callbacks of the item classes", "statement": "What one event client of a process handles, and when, depends only on its own packets, loops and connection and on the callbacks registered with the item classes, not on what happens to the other clients.", "quantifier": "any number of clients, every history of packets, registrations, get_item calls, loops and ends of connections", "why_tests_cant": "all interleavings of any number of clients", "anchors": ["pyown/client/client.py:Client.loop", "pyown/client/client.py:Client._dispatch_callbacks", "pyown/client/base.py:BaseClient.read_message", "pyown/items/lighting/base.py:BaseLight.on_status_change"]}
{"id": "C98", "title": "Commands and getters raise only TimeoutError and the library's own exceptions", "statement": "Whatever well-formed messages the gateway answers with, a command, a getter or a status query returns normally or raises TimeoutError or one of the library's own exceptions.", "quantifier": "every command, getter and query, every argument, every conversation", "why_tests_cant": "all answers a gateway may give, including cut and nonsensical ones", "anchors": ["pyown/items/base.py:BaseItem._single_dim_req", "pyown/items/base.py:BaseItem.send_normal_message", "pyown/items/base.py:BaseItem.send_dimension_request", "pyown/items/gateway/gateway.py:Gateway", "pyown/items/energy/energy.py:EnergyManagement", "pyown/items/energy/stop_go.py:StopGo.request_status", "pyown/items/lighting/dimmer.py:Dimmer.get_status", "pyown/items/automation/automation.py:Automation.get_status"]}
{"id": "C99", "title": "A cancelled request does not disturb the ones after it", "statement": "When a program gives up on a request by cancelling it, the request consumes no further message and does not end otherwise, and the next request on the same client still reports its own answer.", "quantifier": "all interleavings of requests, arriving messages, timeouts and cancellations", "why_tests_cant": "needs every interleaving of cancellations with arriving messages", "anchors": ["pyown/client/base.py:BaseClient.read_message", "pyown/protocol/protocol.py:OWNProtocol.receive_messages", "pyown/items/base.py:BaseItem._send_message", "pyown/items/base.py:BaseItem._read_message"]}
{"id": "C100", "title": "A getter returns an answer to its own question", "statement": "The value a getter returns was sent by the gateway about the item and the property that was asked for.", "quantifier": "every getter, every conversation", "why_tests_cant": "needs answers about other items and properties mixed into the conversation in every way", "anchors": ["pyown/items/base.py:BaseItem._single_dim_req", "pyown/items/base.py:BaseItem.send_dimension_request", "pyown/items/gateway/gateway.py:Gateway.get_ip", "pyown/items/energy/energy.py:EnergyManagement.get_active_power"]}
{"id": "C101", "title": "An item is made for the WHO and the address it is given", "statement": "An item made with an address, and possibly a WHO, given as text or as a tag sends messages with exactly these and reports them as item.who and item.where; what is no address raises InvalidTag and what is no WHO raises ValueError.", "quantifier": "every class, every text and tag, every WHO", "why_tests_cant": "unbounded set of addresses, every class with every WHO", "anchors": ["pyown/items/base.py:BaseItem.__init__", "pyown/items/base.py:BaseItem.who", "pyown/items/base.py:BaseItem.where", "pyown/items/gateway/gateway.py:Gateway.__init__", "pyown/items/energy/energy.py:EnergyManagement.__init__", "pyown/items/energy/stop_go.py:StopGo.__init__"]}
{"id": "C102", "title": "A program of commands is carried out in order up to the first that is not acknowledged", "statement": "A program that starts a client, sends commands one after the other and closes the client writes the frames of its commands in this order, each after the ACK of the one before; the first command that is refused, not answered or invalid ends it with the exception of that command and no later frame is written; if start fails no command is written; at the end the connection is closed exactly when every command was acknowledged. The example programs automation_01 and camera_01 are such programs.", "quantifier": "every list of commands, every gateway behaviour, every handshake", "why_tests_cant": "all lists of commands and all gateway behaviours", "anchors": ["pyown/client/base.py:BaseClient.start", "pyown/client/base.py:BaseClient.close", "pyown/items/base.py:BaseItem._send_message", "examples/automation_01/main.py:run", "examples/camera_01/main.py:run"]}
{"id": "C103", "title": "Programs that ask print exactly what the gateway answered", "statement": "A program that starts a client, asks questions, prints the answers and closes the client prints the decoded answers in the order of the questions; the first question that fails ends it with its exception after the lines before it. This describes the example programs gateway_01, energy_management_01, light_01, custom_message_01 and custom_message_02 for every gateway.", "quantifier": "every list of questions, every gateway behaviour", "why_tests_cant": "all gateway behaviours", "anchors": ["pyown/client/base.py:BaseClient.start", "pyown/client/base.py:BaseClient.send_message", "pyown/client/base.py:BaseClient.read_message", "pyown/client/base.py:BaseClient.close", "pyown/items/base.py:BaseItem._single_dim_req", "examples/gateway_01/main.py:run", "examples/energy_management_01/main.py:run", "examples/light_01/main.py:run", "examples/custom_message_01/main.py:run", "examples/custom_message_02/main.py:run"]}
{"id": "C104", "title": "A program that listens is told of every event once, in order, with its address and its values", "statement": "A program that registers callbacks and then runs loop() is told of every event in the packets received for which it registered a callback: each callback once per event, in the order of arrival and of registration, with the item at the address of the event and the decoded values; and of nothing else.", "quantifier": "every list of registrations, every history of packets, loops and cancellations, every supported Python version", "why_tests_cant": "all histories and all registrations", "anchors": ["pyown/client/client.py:Client.loop", "pyown/client/client.py:Client._dispatch_callbacks", "examples/light_02/main.py:run", "examples/automation_02/main.py:run", "examples/energy_management_02/main.py:run", "examples/gateway_02/main.py:run"]}
{"id": "C105", "title": "A password given as text is the integer it writes", "statement": "own_calc_pass(text, nonce) gives exactly the answer of own_calc_pass(i, nonce) for the integer i that the (ASCII) text writes, where a text writes an integer when it consists of white space around an optional sign and one or more groups of digits separated by single underscores, at most 4300 digits in all; a text writes at most one integer, the decimal numeral of an integer writes it, and every other text raises ValueError. When the gateway asks for an OPEN password, start() raises ValueError exactly for the texts that write no integer.", "quantifier": "every ASCII text, every integer, every nonce, every gateway asking for an OPEN password", "why_tests_cant": "the texts accepted and rejected are infinite languages", "anchors": ["pyown/auth/open.py:own_calc_pass", "pyown/client/base.py:BaseClient._authenticate_open"]}
{"id": "C106", "title": "read_message returns the next message if it comes in time, and loses none if it does not", "statement": "read_message(timeout) on a started client returns the next message at the moment it is there, provided it is already there or comes before the timeout is over; otherwise it raises TimeoutError exactly when the timeout is over and leaves the message, should it come later, to the next call; with None it waits until a message comes. Waiting d and then d' seconds is waiting d + d' seconds, and whatever the timeouts and pauses, successive calls return the messages in the order of arrival, each once.", "quantifier": "every timeout, every arrival time, every sequence of calls", "why_tests_cant": "continuum of arrival times and timeouts, unbounded sequences of calls", "anchors": ["pyown/client/base.py:BaseClient.read_message", "pyown/protocol/protocol.py:OWNProtocol.receive_messages"]}
{"id": "C107", "title": "Calls raise TimeoutError exactly when the gateway is silent for five seconds, and end then", "statement": "After the connection is made, start(), commands, status and dimension queries and getters take messages that are never five seconds apart and end when they have taken the last of them, or, when five seconds pass without one, raise TimeoutError five seconds after the last message (or after the call was made); they raise TimeoutError in no other case. A message that comes too late stays for the next read.", "quantifier": "every call, every schedule of messages", "why_tests_cant": "all schedules of arrivals, conversations of any length", "anchors": ["pyown/client/base.py:BaseClient.start", "pyown/client/base.py:BaseClient.read_message", "pyown/items/base.py:BaseItem.send_normal_message", "pyown/items/base.py:BaseItem.send_status_request", "pyown/items/base.py:BaseItem.send_dimension_request"]}
{"id": "C108", "title": "send_message spaces messages by its delay", "statement": "OWNProtocol.send_message waits the given delay before it sends, so that any two messages of a connection are written at least the delay apart.", "quantifier": "every pair of calls, every delay, every congestion of the transport", "why_tests_cant": "all schedules of calls and of congestion", "anchors": ["pyown/protocol/protocol.py:OWNProtocol.send_message"]}
{"id": "C109", "title": "The messages of session types and HMAC algorithms say which one they are", "statement": "SessionType.to_message() and AuthAlgorithm.to_message() give the documented frames *99*S## and *98*A##. Reading such a frame with parse_message gives the same message back, and its second tag determines the session type or algorithm (AuthAlgorithm.from_string returns it). A gateway that greets, announces an algorithm with that message and then sends a key is answered by an ACK and by the client's key and proof computed with exactly that algorithm.", "quantifier": "every session type, algorithm, password, key message and later behaviour of the gateway", "why_tests_cant": "unit tests look at one frame; that the announcement selects the hash of the proof is a statement about all keys and all continuations", "anchors": ["pyown/auth/enum.py:AuthAlgorithm.to_message", "pyown/auth/enum.py:AuthAlgorithm.from_string", "pyown/client/session.py:SessionType.to_message", "pyown/client/base.py:BaseClient._authenticate_hmac"]}
{"id": "C110", "title": "An exception raised in a callback is logged once and disturbs nothing else", "statement": "When a callback started by loop() raises an exception, pyown logs it, once; what is logged as an error in a callback is an exception some callback raised; and neither an exception nor a cancellation keeps other callbacks, of the same or a later event, from being started.", "quantifier": "every sequence of messages, registrations and endings of callbacks, in every order", "why_tests_cant": "callbacks end in any order and interleave with later events; a test sees one order", "anchors": ["pyown/client/client.py:Client._dispatch_callbacks", "pyown/client/client.py:Client._check_task_result", "pyown/items/base.py:BaseItem._create_tasks"]}
{"id": "C111", "title": "On the socket, calls are the documented bytes, and succeed on the documented bytes", "statement": "A command writes exactly the ASCII bytes of its frame; it returns if within five seconds the bytes *#*1## come back, raises ResponseError if another frame comes, and TimeoutError if none does. A query returns the values of the replies written before *#*1##, and start() returns when the gateway has written its part of a complete handshake. All this however the bytes of the gateway are divided into TCP segments.", "quantifier": "every command, query and handshake, all bytes, times of arrival and divisions into packets", "why_tests_cant": "all packetisations and timings of the conversation; tests mock the messages, not the bytes", "anchors": ["pyown/protocol/protocol.py:OWNProtocol.data_received", "pyown/protocol/protocol.py:OWNProtocol.send_message", "pyown/client/base.py:BaseClient.start", "pyown/client/base.py:BaseClient.read_message", "pyown/items/base.py:BaseItem.send_normal_message"]}
{"id": "C112", "title": "The log of a connection is no secret, and tells no secrets", "statement": "What pyown logs while start() runs depends only on what the gateway says, on what is sent to it and on whether start() returns; logging changes nothing about what start() does; \"Client ready\" is logged exactly when start() returns. The log never lets a reader work out the password, at any log level.", "quantifier": "every password, configuration and gateway, every log level", "why_tests_cant": "that something cannot be computed from a log is a statement about all passwords at once", "anchors": ["pyown/client/base.py:BaseClient.start", "pyown/protocol/protocol.py:OWNProtocol.send_message", "pyown/protocol/protocol.py:OWNProtocol.data_received"]}
{"id": "C113", "title": "loop() drops no event without a word", "statement": "An event received by loop() that is neither ACK nor NACK either starts the callbacks registered for it, or leaves a record in the log that says why not.", "quantifier": "every history of registrations and packets, every event, every behaviour of the callbacks", "why_tests_cant": "all events and all states of the registrations; the tests do not look at the log", "anchors": ["pyown/client/client.py:Client.loop", "pyown/client/client.py:Client._dispatch_callbacks", "pyown/items/lighting/base.py:BaseLight.call_callbacks", "pyown/items/energy/energy.py:EnergyManagement.call_callbacks"]}
{"id": "C114", "title": "\"Item not found for message\" is logged for messages without an item", "statement": "When loop() logs the warning \"Item not found for message\", there is no item for that message; a message for whose WHO pyown has no item is logged so.", "quantifier": "every history of registrations and packets, every event", "why_tests_cant": "all events and histories; the tests do not look at the log", "anchors": ["pyown/client/client.py:Client.loop", "pyown/client/client.py:Client._dispatch_callbacks"]}
{"id": "C115", "title": "Nothing that is received and thrown away is thrown away without a trace", "statement": "Every frame pyown receives is either delivered to the reader or, when it is thrown away, quoted in the log at WARNING or above.", "quantifier": "every packet of bytes", "why_tests_cant": "all packets: mixtures of good and bad frames, bytes that are no text; the tests do not look at the log", "anchors": ["pyown/protocol/protocol.py:OWNProtocol.data_received", "pyown/client/base.py:BaseClient._exception_handler", "pyown/messages/base.py:parse_message"]}
{"id": "C116", "title": "At DEBUG the log is a complete account of the conversation", "statement": "With the level DEBUG the log says exactly which messages have been delivered and which bytes have been written, each in order, and the messages can be told apart by their texts in the log: connections that leave the same log have received the same messages.", "quantifier": "every sequence of packets; every history of calls of send_message, congestion, wake-ups and cancellations", "why_tests_cant": "that a text determines the messages is a statement about all pairs of messages; interleavings of senders", "anchors": ["pyown/protocol/protocol.py:OWNProtocol.data_received", "pyown/protocol/protocol.py:OWNProtocol.send_message", "pyown/messages/base.py:BaseMessage.__repr__"]}
{"id": "C117", "title": "Making a client takes no error report away from the program", "statement": "What is reported to the event loop reaches the exception handler the program has set, or the log of asyncio, whether or not clients of pyown are made, started and closed on that loop.", "quantifier": "every history of the event loop, every handler and every report", "why_tests_cant": "all orders of setting handlers and making clients, and all reports of asyncio", "anchors": ["pyown/client/base.py:BaseClient.__init__", "pyown/client/base.py:BaseClient._exception_handler", "pyown/client/base.py:BaseClient.close"]}
{"id": "C118", "title": "A request that reports success was written to the connection", "statement": "When a command or a query of an item ends without an exception, its frame was given to the transport while the connection was there; a request made after close() raises InvalidSession and writes nothing.", "quantifier": "every history of any number of requests, messages, timeouts, cancellations, congestion, loss of the connection and close()", "why_tests_cant": "all interleavings of requests with messages left over, the loss of the connection and close()", "anchors": ["pyown/protocol/protocol.py:OWNProtocol.connection_lost", "pyown/protocol/protocol.py:OWNProtocol.send_message", "pyown/client/base.py:BaseClient.close", "pyown/client/base.py:BaseClient.send_message", "pyown/client/base.py:BaseClient.read_message"]}
{"id": "C119", "title": "When the connection ends, the requests under way end", "statement": "When the connection is lost or the client is closed, every request under way ends with an exception without having to be cancelled, and no request is left waiting for a connection that is gone.", "quantifier": "every state at the end of the connection, every request under way, every continuation", "why_tests_cant": "all continuations without end after the loss, at every point at which a request can be suspended", "anchors": ["pyown/protocol/protocol.py:OWNProtocol.connection_lost", "pyown/protocol/protocol.py:OWNProtocol.pause_writing", "pyown/protocol/protocol.py:OWNProtocol.resume_writing", "pyown/protocol/protocol.py:OWNProtocol.send_message", "pyown/protocol/protocol.py:OWNProtocol.receive_messages", "pyown/client/base.py:BaseClient.close"]}
{"id": "C120", "title": "A gateway model the library does not know is told in the log", "statement": "When get_model or an event gives a model whose code is neither listed in the documentation nor known to the library, the result is GENERIC and a warning that names the code is logged, each time; nothing is logged for a code that is known or documented, and logging changes no result.", "quantifier": "every code (any text), every message, every item and every state of the client", "why_tests_cant": "all texts a gateway can send as its model", "anchors": ["pyown/items/gateway/gateway.py:GatewayModel._missing_", "pyown/items/gateway/gateway.py:Gateway.get_model", "pyown/items/gateway/gateway.py:Gateway.call_callbacks"]}
{"id": "C121", "title": "A ResponseError says what the gateway answered and what was expected", "statement": "The text of a ResponseError raised by a command or a query quotes the message of the gateway that caused it and names a message that would have been accepted in its place; the text 'The server did not respond with data.' is given exactly when the gateway ended a request for a value without sending one; both parts can be read off the text.", "quantifier": "every configuration, every command and query, every state of the client and every sequence of answers of the gateway", "why_tests_cant": "all messages a gateway can answer with at every point of a query", "anchors": ["pyown/items/base.py:BaseItem._check_ack", "pyown/items/base.py:BaseItem._check_nack", "pyown/items/base.py:BaseItem.send_normal_message", "pyown/items/base.py:BaseItem.send_status_request", "pyown/items/base.py:BaseItem._single_dim_req"]}
{"id": "C122", "title": "The text of a failed login tells what went wrong", "statement": "When start() raises InvalidAuthentication, its text tells at which step the login failed and says what happened on the connection: 'Expected ACK message' for a wrong greeting, 'Invalid authentication response' for an answer that is neither an ACK nor a challenge, 'Invalid hash algorithm' for an algorithm there is not, and 'Invalid password' when the gateway refuses the password; conversely each of these conversations is reported with its text.", "quantifier": "every configuration, every state of the client and every conversation with the gateway", "why_tests_cant": "all conversations, including those of a gateway that misbehaves", "anchors": ["pyown/client/base.py:BaseClient.start", "pyown/client/base.py:BaseClient._authenticate_open", "pyown/client/base.py:BaseClient._authenticate_hmac"]}
{"id": "C123", "title": "No exception of start() contains the password", "statement": "The text of an exception raised by start() does not contain the password, so that it can be logged or shown.", "quantifier": "every password, every configuration, every state of the client and every conversation with the gateway", "why_tests_cant": "all passwords and all conversations", "anchors": ["pyown/client/base.py:BaseClient.start", "pyown/auth/open.py:own_calc_pass"]}
{"id": "C124", "title": "An InvalidSession error says what is wrong with the session", "statement": "A command on an event session fails with 'Cannot send messages in an event session', and only then; a client that is not started fails with 'Client not started' when it sends on a command session or reads, and only then; loop() fails at once with 'Cannot run loop on a command session' on a command session, with 'Client is not connected' on an event session without a connection, and only then.", "quantifier": "every configuration, every message and every state of the client", "why_tests_cant": "all states of the client and all messages", "anchors": ["pyown/client/base.py:BaseClient.send_message", "pyown/client/base.py:BaseClient.read_message", "pyown/client/client.py:Client.loop"]}
{"id": "C125", "title": "The text of an item tells it from the other items of its client", "statement": "str() and repr() of two items got from one client are equal exactly when they are the same item; the class and the address of an item can be read off its text.", "quantifier": "every pair of items got with get_item from one client, after any history of calls and events", "why_tests_cant": "all histories of a client and all addresses", "anchors": ["pyown/items/base.py:BaseItem.__str__", "pyown/items/base.py:BaseItem.__repr__", "pyown/client/client.py:Client.get_item"]}
{"id": "C126", "title": "What a client remembers grows with the addresses it meets, not with the number of events", "statement": "A client keeps one item for each supported address that occurred in an event or in get_item, and none besides, so that the items a program can get from it are at most as many as the addresses that occurred; and the events it has received and not yet handled do not pile up while the connection is open.", "quantifier": "every history of packets, loops, cancellations and get_item calls of a client, every number of events", "why_tests_cant": "memory over an unbounded run is no result of any finite test", "anchors": ["pyown/client/client.py:Client.get_item", "pyown/client/client.py:Client.loop", "pyown/protocol/protocol.py:OWNProtocol.data_received"]}
{"id": "C127", "title": "The orders of one program reach the callbacks of another", "statement": "When the gateway passes the frames that one program writes on to another program that listens, the callbacks of the second are told of each order to a light or a shutter once, in order, with the address and the state it asks for.", "quantifier": "every sequence of orders, every division into packets of whole frames, every set of callbacks, every history of loops in the listener", "why_tests_cant": "composes what is written by one process with what is parsed and dispatched in another, over all sequences of orders", "anchors": ["pyown/items/lighting/base.py:BaseLight.call_callbacks", "pyown/items/automation/automation.py:Automation.call_callbacks", "pyown/client/client.py:Client.loop", "pyown/items/base.py:BaseItem.send_normal_message"]}
{"id": "C128", "title": "No event is lost between start() and loop()", "statement": "Everything the gateway sends behind its last message of the login, even in the packet that ends the login, is left in the queue by start() and handled by loop() exactly as if it had come in a packet of its own after start(); no message of the login is handled as an event.", "quantifier": "every kind of login, every division of login and events into packets of whole frames, everything the program does after start()", "why_tests_cant": "all places where the login can end inside a packet, and all continuations", "anchors": ["pyown/client/base.py:BaseClient.start", "pyown/client/client.py:Client.loop", "pyown/protocol/protocol.py:OWNProtocol.data_received", "pyown/protocol/protocol.py:OWNProtocol.receive_messages"]}
{"id": "C129", "title": "A callback can command the device it hears about", "statement": "Whatever a program does with its loops, its callbacks, get_item, cancellations and the packets of the gateway, each callback that is started is started for an event that arrived and that it was registered for. The item it gets addresses the device of that event: each command without parameters of the class of that item, but turn_on_30_min (see C39), sends the documented frame with the WHERE of the event, through the client the item belongs to, takes one reply and succeeds exactly on ACK. If the loops and the calls of get_item name one client only and its session is an event session, as when loop() is called without a client, each of these commands raises InvalidSession and sends nothing.", "quantifier": "for all histories of any number of loops, all callbacks, all configurations of the clients, all commands without parameters of Light, Automation and EnergyManagement, all worlds and all replies", "why_tests_cant": "An address can be lost between the parser, the table of items, the item and the frame of the command; tests of each step with one address do not show that the address of every event comes back in every command.", "anchors": ["pyown/items/utils.py:12", "pyown/client/client.py:55", "pyown/client/client.py:79", "pyown/items/base.py:83", "pyown/items/lighting/light.py:14", "pyown/items/automation/automation.py:55"]}
{"id": "C130", "title": "A client that is started again goes on listening", "statement": "After the connection has ended, start() makes the client listen again. The callbacks registered before are called for the events of the new connection, with the same item objects as before; each of these events is handled exactly once, in the order of arrival, and nothing of an earlier connection is handled again: the client behaves like a new one with these items and callbacks. A loop() that was waiting when the connection ended goes on with the new connection. (The code fails in the last point: such a loop() waits for ever; loop() has to be called again.)", "quantifier": "for all histories of packets, lost connections, close(), starts, registrations, get_item, and any number of loops called, resumed and cancelled, in which the loops that wait at a new start wait for a connection that has ended; all continuations without a further start", "why_tests_cant": "Which connection a waiting loop reads from depends on everything that happened before the restart; a test restarts in one state.", "anchors": ["pyown/client/base.py:81", "pyown/client/base.py:225", "pyown/client/client.py:79", "pyown/client/client.py:53", "pyown/protocol/protocol.py:41"]}
{"id": "C131", "title": "A program of rules gives its commands once, in the order of the events, and each reports its own answer", "statement": "A program listens with one client and lets its callbacks give commands to items of another client; both run on the event loop of asyncio. At every moment the commands sent are a beginning of those that the rules give for the events received, in the order of the events and of the registrations, and when the event loop is at rest - it always comes to rest - they are all of them, each once. The reports of the commands, in their order, are the answers of the gateway in the order of arrival, no command reports twice, and once every command is answered every command has reported; and each reports the answer to itself. (The code fails in the last point: a callback that begins while an answer waits for a task that was woken takes this answer.)", "quantifier": "for all rules from callback, address and values to a command, all registrations, all sequences of well-formed packets and answers at all moments of the event loop, on Python up to 3.12", "why_tests_cant": "The interleaving of two connections, the listening task, and any number of callbacks and readers on one event loop is chosen by the network.", "anchors": ["pyown/client/client.py:79", "pyown/client/client.py:145", "pyown/items/base.py:83", "pyown/items/base.py:200", "pyown/protocol/protocol.py:64", "pyown/protocol/protocol.py:124"]}
{"id": "C132", "title": "A program can add item classes of its own", "statement": "A class that a program derives from BaseItem, with a WHO and a call_callbacks of its own, is told of every event of that WHO, once and in order, with one item of the class per address; adding classes changes nothing for the callbacks of the library's classes. Entering Camera in ITEM_TYPES makes camera callbacks work.", "quantifier": "every set of program classes and ITEM_TYPES entries, every sequence of messages, every registration, every Python version", "why_tests_cant": "programs and their classes are not enumerable; the order of __subclasses__ and the dictionary interact", "anchors": ["pyown/client/client.py:Client._dispatch_callbacks", "pyown/client/client.py:Client.get_item", "pyown/items/utils.py:ITEM_TYPES", "pyown/items/base.py:BaseItem.call_callbacks"]}
{"id": "C133", "title": "A text from outside used as an address cannot turn a command into another", "statement": "Whatever text a program passes on as WHERE, either the item is refused with InvalidTag and nothing is sent, or a gateway that reads the bytes up to each ## finds exactly the frame of the method called, at that address, and nothing else.", "quantifier": "every text, every fixed command of every item class", "why_tests_cant": "all texts; the terminator can be hidden in an address", "anchors": ["pyown/tags/base.py:BaseTag.__init__", "pyown/items/base.py:BaseItem.create_normal_message", "pyown/items/base.py:BaseItem.create_dimension_writing_message", "pyown/messages/normal.py:NormalMessage.message"]}
{"id": "C134", "title": "A login that was listened to cannot be repeated", "statement": "Somebody who has listened to a login cannot use it again. To somebody who repeats what the gateway said, a client that has drawn another number answers InvalidAuthentication, and start() fails; and what a client wrote in one login is not what it writes in a login where the gateway has drawn another number, so a gateway that compares does not take the old one. (The code does so with HMAC, if the hash and the HMAC do not collide. With OPEN the client draws nothing, so what the gateway said is a login each time; and challenges that differ in zeros have the same answer.)", "quantifier": "for every password, hash algorithm, conversation that was a login, pair of client numbers, pair of gateway numbers, and all that follows", "why_tests_cant": "A replay is a relation between two runs with different random numbers; a test fixes the numbers or mocks them.", "anchors": ["pyown/client/base.py:BaseClient._authenticate_hmac", "pyown/auth/hmac.py:server_hmac", "pyown/auth/hmac.py:client_hmac", "pyown/auth/open.py:own_calc_pass"]}
{"id": "C135", "title": "Tasks that each give several commands keep their order and get their own answers", "statement": "A program runs several tasks at the same time on one client, each of which awaits several commands one after the other (callbacks with more than one command, asyncio.gather of such functions). Each task sends its commands in its order, the next one at once when the one before has returned, and none after one that raised; and with a gateway that answers the commands in the order in which it gets them, every command reports the answer to itself. (The code fails in the last point: when two answers arrive together, a task that runs on with its next command takes the answer that another task was woken for.)", "quantifier": "for any number of tasks, all sequences of commands, all histories of tasks beginning, messages arriving, tasks being resumed, timeouts and cancellations", "why_tests_cant": "Whether an answer is stolen depends on which answers share a packet and on the order in which the event loop runs the tasks.", "anchors": ["pyown/items/base.py:BaseItem.send_normal_message", "pyown/client/base.py:BaseClient.read_message", "pyown/protocol/protocol.py:OWNProtocol.receive_messages", "pyown/protocol/protocol.py:OWNProtocol.data_received"]}
{"id": "C136", "title": "Programs that share a house see one order of their calls", "statement": "Several programs, each with a client of its own and each deciding by what it was told so far, switch and ask for the state of lamps, dimmers and shutters of one house at the same time. If the gateway carries out the frames it gets one at a time, each with its replies on the connection it came from, and no call times out, then there is one order of all the calls — the one in which the gateway got them — which has the calls of every program in the order of that program, and in which every call gives exactly what the calls before it call for: a state that is read is the one the last command left, whichever program gave it. And the other way round: whatever the programs do when they take turns, in whatever order, is something that can happen.", "quantifier": "for any number of programs, all programs (what they call next may depend on all results), all houses, all interleavings of the frames at the gateway, however the replies are spread over time", "why_tests_cant": "The interleavings of several adaptive programs are not enumerable, and the claim is that a common order exists.", "anchors": ["pyown/items/base.py:BaseItem.send_normal_message", "pyown/items/base.py:BaseItem.send_status_request", "pyown/items/lighting/light.py:Light.get_status", "pyown/items/lighting/dimmer.py:Dimmer.get_status", "pyown/items/automation/automation.py:Automation.get_status"]}
{"id": "C137", "title": "Asking and listening agree", "statement": "What a program can ask an item for and can also listen to is told to those who listen as to those who ask: by every message that tells it, a registered callback is called with the value the getter returns when that message is the answer, and is not called if the getter gives no value.", "quantifier": "for everything that can be asked for and listened to, every message that tells it, every address the class is built for, every state in which the client is ready, every history in which the event connection is waiting for that message", "why_tests_cant": "The claim compares two ways through the code on every message with every payload and every history of registrations; a test compares them on a few.", "anchors": ["pyown/items/lighting/base.py:BaseLight.call_callbacks", "pyown/items/lighting/light.py:Light.get_status", "pyown/items/lighting/dimmer.py:Dimmer.get_status", "pyown/items/automation/automation.py:Automation.call_callbacks", "pyown/items/automation/automation.py:Automation.get_status", "pyown/items/gateway/gateway.py:Gateway.call_callbacks", "pyown/items/energy/energy.py:EnergyManagement.call_callbacks"]}
{"id": "C138", "title": "A lock around each request keeps the answers apart", "statement": "If the tasks that share a client take one asyncio.Lock around each request, then requests are carried out one at a time in the order of the calls, the lock is never left lying while somebody waits for it, every command or query that does not time out gets its own answer, all of it, and reports what it says, and when nothing is left to happen every request that was called has ended. (Without the lock this fails, see C80.)", "quantifier": "for any number of requests of all kinds, all answers of a gateway that answers in order, all times at which requests are called and messages arrive, all schedules", "why_tests_cant": "The interleavings of calls, arrivals and wake-ups are not enumerable, and the fault a lock should exclude shows in few of them.", "anchors": ["pyown/items/base.py:BaseItem.send_normal_message", "pyown/items/base.py:BaseItem.send_status_request", "pyown/items/base.py:BaseItem.send_dimension_request", "pyown/client/base.py:BaseClient.read_message", "pyown/protocol/protocol.py:OWNProtocol.receive_messages"]}
{"id": "C139", "title": "A lock, and a new connection after each request that is given up, keep the answers apart always", "statement": "If the tasks that share a client take one asyncio.Lock around each request, and a task whose request times out or is cancelled calls start() again before it releases the lock, then every command or query that does not time out gets its own answer, all of it, and reports what it says, whatever was given up before and whenever late answers come; the frames are written in the order of the calls, each at most once; and when nothing is left to happen every request that was called has ended, unless its task was cancelled.", "quantifier": "for any number of requests of all kinds, all answers of a gateway that answers in order on each connection, all times of calls, arrivals, timeouts, cancellations and restarts, all schedules", "why_tests_cant": "The interleavings are not enumerable, and late answers are what tests with a mocked gateway do not have.", "anchors": ["pyown/client/base.py:BaseClient.start", "pyown/client/base.py:BaseClient.read_message", "pyown/items/base.py:BaseItem.send_normal_message", "pyown/items/base.py:BaseItem.send_status_request", "pyown/items/base.py:BaseItem.send_dimension_request", "pyown/protocol/protocol.py:OWNProtocol.receive_messages"]}
{"id": "C140", "title": "A program may give a command for each value while it reads the replies of a query", "statement": "A program that gives one command for every value a status request reports gives them one after the other for as long as the gateway acknowledges them, and ends as the gateway's answers to these commands say. Precisely: this is so when the query is read to its end before the first command. With the command inside async for, the command for the first value takes the next reply of the query for its own answer and raises ResponseError whatever the gateway says; if no reply follows it takes the ACK of the query, reports success even if it is refused, and the next command takes the answer to it.", "quantifier": "for all items, getters and commands of one frame, all numbers of replies and of values per reply, and all answers to the commands", "why_tests_cant": "A test has one light and a gateway that acknowledges everything; with one reply and one command the two forms do not differ. The claim is about every number of replies and all answers.", "anchors": ["pyown/items/base.py:BaseItem.send_status_request", "pyown/items/base.py:BaseItem.send_normal_message", "pyown/items/lighting/light.py:Light.get_status"]}
{"id": "C141", "title": "A command may be tried again after a timeout", "statement": "A program that tries a command again each time it raises TimeoutError, up to n times, writes the frame of the command at most n + 1 times and nothing else, takes at most one message, succeeds exactly if that is an ACK, and raises TimeoutError only after n + 1 attempts; and the command after it reports the gateway's answer to that command. Precisely: on one connection the last part fails when an answer comes late, because the answer to the repeated frame is then taken by the next command; it holds if the program calls start() before each further attempt, however many connections are slow and whatever comes on them too late.", "quantifier": "for all commands of one frame, all n, all that can arrive on each connection and all silences, any number of slow connections, and both authentications", "why_tests_cant": "A test has one silence and one answer. The claim is about all numbers of attempts and connections, and about answers that come after the next attempt was made.", "anchors": ["pyown/client/base.py:BaseClient.read_message", "pyown/client/base.py:BaseClient.start", "pyown/items/base.py:BaseItem.send_normal_message"]}
{"id": "C142", "title": "Programs that switch a lamp to what it is not leave it as the number of times says", "statement": "If programs ask a lamp whether it is on and then turn it to the opposite, the lamp is in the end as it was if this was done an even number of times, and the other way if it was done an odd number of times. Precisely: this holds for one program that does it n times, for every n, while any number of other programs do anything but switch that lamp, and for any number of programs if the gateway gets the order of each next after its question; it fails for two programs that do it at the same time, which may both find the lamp off and both turn it on, with all calls successful.", "quantifier": "for all houses, all programs that share them, all numbers of times, and every order in which the gateway carries out the frames, if no call times out", "why_tests_cant": "The claim is about every interleaving of any number of programs; a test runs one, and mostly the one in which no frame falls between the question and the order.", "anchors": ["pyown/items/lighting/light.py:Light.get_status", "pyown/items/lighting/light.py:Light.turn_on", "pyown/items/lighting/light.py:Light.turn_off"]}
{"id": "C143", "title": "A program that listens and asks once knows which lamps are on", "statement": "A program that keeps a table of lamps, filled by the answer to one status request and by the events, shows in the end every lamp it asked for as it is, whatever other programs switch meanwhile. Precisely: this holds if the event client is started first, the request is made then, and loop() is called when the answer is in the table, so that all reports since the connection are handled after it; it fails if the program listens only after it has asked, or handles events while it waits for the answer, for the answer may be older than a report that was missed or handled.", "quantifier": "for all houses, all other programs, every order in which the gateway carries out the frames, every moment at which the question falls, all reports that contain at least the changes, and all packets in which they come", "why_tests_cant": "The claim is about every interleaving of the question with the orders of others on two connections; a test fixes one.", "anchors": ["pyown/items/lighting/light.py:Light.get_status", "pyown/items/lighting/base.py:BaseLight.on_status_change", "pyown/client/client.py:Client.loop"]}
{"id": "C144", "title": "An order that is tried again works once", "statement": "A program that gives an order (turn on, turn off, set a level, move or stop a shutter) again after a TimeoutError, until it is acknowledged, can be relied on as if it had given the order once: all programs together are told what they would be told then. Precisely: the house is in the end as if only the last of its frames had reached the gateway, whatever others do between them, and if nobody else does anything it is as after the order given once; but what others are told meanwhile may need the order twice: one program may find a lamp on, turn it off, and find it on again, though another gave only one order to turn it on.", "quantifier": "for all houses, all orders that are states of a device, all addresses including those of many devices, every number of attempts, all other programs, and every order in which the gateway carries out the frames", "why_tests_cant": "The claim is about every interleaving of late copies of a frame with the frames of others; a test fixes one gateway script.", "anchors": ["pyown/items/base.py:BaseItem.send_normal_message", "pyown/items/lighting/light.py:Light.turn_on", "pyown/client/base.py:BaseClient.read_message"]}
{"id": "C145", "title": "A program is told how several lamps are at one moment", "statement": "A program that asks several lamps for their status is told how they were at one moment, whatever other programs switch meanwhile. Precisely: this holds for one request to an address of many lamps: the answer is the state of all of them at one moment between two frames the gateway carried out, and later calls of the same program are answered as of later moments; it holds for lamps asked one after the other if no other program switches them; it fails for lamps asked one after the other while another program switches them: two lamps may both be found on that were never on together.", "quantifier": "for all houses, any number of programs each of which decides by what it was told, all addresses, every number of lamps, and every order in which the gateway carries out the frames", "why_tests_cant": "The claim is about every interleaving of the questions with the orders of others; a test fixes one.", "anchors": ["pyown/items/lighting/light.py:Light.get_status", "pyown/items/base.py:BaseItem.send_status_request"]}
{"id": "C146", "title": "A command that is tried again after a pause ends in time", "statement": "A program that gives a command, sleeps after a TimeoutError and gives it again, up to n times, ends within five seconds for each attempt and the pauses between them, whatever the gateway sends and when. It writes the frame once in each attempt, takes at most one message, and succeeds exactly if that is ACK. The first message counts as the answer of the first attempt that has not timed out when it arrives, also if it arrives in a pause; if none arrives in time the frame is written n + 1 times and TimeoutError is raised when the last wait is over.", "quantifier": "for every command, every number of attempts, every pause, and all sequences of messages with their times of arrival", "why_tests_cant": "The time at which the answer arrives ranges over all milliseconds before, in and after each wait and pause; tests mock the timeout away.", "anchors": ["pyown/client/base.py:BaseClient.read_message", "pyown/items/base.py:BaseItem.send_normal_message"]}
{"id": "C147", "title": "A program that goes on after a failed command is told the answer to each command", "statement": "A program that gives commands one after the other, catches TimeoutError and ResponseError and goes on, is told of each command the answer to that command: one that succeeds was acknowledged. Precisely: the commands take the messages in the order of their arrival and leave none out, each takes at most one, and is told by it or times out; if every answer arrives after its command was given and within five seconds each command is told its own answer; but after one answer that comes late, and before the next command has timed out, every further command is told the answer to the one before it, however punctual the gateway is from then on, so that a refused command is reported as successful.", "quantifier": "for all sequences of commands and pauses between them, and all sequences of messages with their times of arrival", "why_tests_cant": "The claim is about programs of every length and all arrival times, and the fault shows only in the commands after the one that timed out; tests look at one call with a mocked timeout.", "anchors": ["pyown/client/base.py:BaseClient.read_message", "pyown/items/base.py:BaseItem.send_normal_message", "pyown/protocol/protocol.py:OWNProtocol.receive_messages"]}
{"id": "C148", "title": "After a timeout a program can catch up by reading until nothing comes", "statement": "A program that gives commands one after the other and after each TimeoutError calls read_message(timeout=d) until that times out is told its own answer of every command, or that none came in time, if each answer arrives after its command was given and less than five seconds and d later. The reads take what arrives in order, end d after the last of it, leave nothing that has arrived by then, and last at most d longer for each message they take. The bound is sharp: for every positive d, an answer that comes five seconds and d after its command is taken for the answer to the next one.", "quantifier": "for all sequences of commands and pauses, every d, and all times at which the answers arrive", "why_tests_cant": "The claim is about every arrival time relative to the waits, the reads and the pauses of programs of every length; tests look at one call with a mocked timeout.", "anchors": ["pyown/client/base.py:BaseClient.read_message", "pyown/items/base.py:BaseItem.send_normal_message"]}
{"id": "C149", "title": "A program that connects again after a timeout is told the answer to each command", "statement": "A program that gives commands one after the other and after each TimeoutError calls close() and start() is told, whatever arrives and whenever, of the commands on each connection the messages of that connection, of the first command the first, of the second the second, and so on, each within five seconds of being given; only the last command on a connection may time out. No message of one connection counts for a command on another, however late it comes. As long as connections can be opened every command is given and has an outcome.", "quantifier": "for all sequences of commands and pauses, all sequences of connections, and all messages on them with their times of arrival", "why_tests_cant": "The claim is about every arrival time and about programs and sequences of connections of every length; tests look at one call on one mocked connection.", "anchors": ["pyown/client/base.py:BaseClient.start", "pyown/client/base.py:BaseClient.close", "pyown/client/base.py:BaseClient.read_message", "pyown/items/base.py:BaseItem.send_normal_message", "pyown/protocol/protocol.py:OWNProtocol.__init__"]}
