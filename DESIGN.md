# Machine-checked model of pyown

Subject: `/repo/pyown` (Python, asyncio client library for OpenWebNet gateways), read as text; nothing of it was run.
Model and proofs: Lean 4 (4.33.0) with Mathlib, in `/verif/lean`.
`properties.jsonl` holds the 149 properties, `MANIFEST.json` their status and the names of the 612 property theorems,
`seeded/LOG.jsonl` the wrong programs the theorems were tested against.

## 1. Layout

| directory | content |
|---|---|
| `Verif/Py` | the Python built-ins and standard library the code relies on: strings as `List Char`, `str.split/strip/count/removeprefix`, `int()`, `str(int)`, `float()`, `datetime`, `ipaddress`, regular expressions and their backtracking |
| `Verif/Model` | the code, function by function; every definition cites file and lines |
| `Verif/Spec` | small specifications written from the protocol documentation (`/repo/docs/original`), the docstrings, or the Python/asyncio contract, without model helpers |
| `Verif/Proofs` | helper lemmas |
| `Verif/Props` | the property theorems `Cnn_…`, each with a concrete example that meets its hypotheses |

Names: `Cnn_…_refuted` proves that the claim as stated in `properties.jsonl` is false, with a concrete witness (often for
every input of a kind); `Cnn_…_partial` is the part of the claim that holds, or an exact description of what happens.
Every other `Cnn_…` is the claim, or a part of it, in full.

## 2. How each part is modelled

* **Strings** are lists of Unicode scalar values (`List Char`).  Lone surrogates, which Python `str` can hold,
  are the only strings not represented; no function of the library treats them differently from any other foreign character.
* **Exceptions** are values of an inductive type `Err`, one constructor per exception class that the code raises or lets through
  (`ValueError`, `IndexError`, `KeyError`, `TypeError`, `OverflowError`, … included).  No error branch is replaced by a default.
* **Regular expressions** are an AST translated constructor by constructor from the patterns in the source; the matcher is a derivative
  matcher proved equal to the textbook denotation (`Lang`).  For the cost (C67) there is a second matcher with CPython's backtracking
  strategy and a step counter, proved to decide the same language.
* **Integers**: Python ints are `Int`; `&`, `|`, `~`, `<<`, `>>` are the infinite two's complement operations.
* **Floats** occur only as `float(text of a tag)`, and the text of a tag has digits and `#` only: a natural number rounded to 53 significant bits,
  ties to even, or infinity.
* **I/O** (`Model/Client`, `Items`, `Queries`, `Gateway`, `Energy`, `Commands`): an `async` method is a state transformer
  `World → Except Err α × World`.  `World` holds the client state, the list of what future reads will see (messages, and silences longer
  than the read timeout), what future connection attempts will meet, and the trace of connections, frames written and messages read.
  Quantifying over these lists quantifies over every behaviour of the gateway.
* **Asynchronous generators** are modelled by their steps (`openStream`, `nextReply`), so that a consumer may stop anywhere.
* **Concurrency** (`Model/Protocol`, `Model/Concurrent`, `Model/Events`): labelled transition systems with one label per atomic step between
  two `await`s (asyncio is cooperative, so the code between two `await`s is atomic); properties are proved by induction over all label sequences.
* **Aliasing** (`Model/Heap`): for C81 only, message objects refer to lists in a heap.
* **Hash functions** (SHA-1, SHA-256, HMAC, Python `hash`) and random bytes are universally quantified parameters.
* **Callbacks** are identifiers; what calling one does (start a task or raise) is a universally quantified parameter.
* **Python version**: `classmethod` + `property` chaining works up to 3.12 and not from 3.13 on; the event model takes the version as
  a parameter, and the theorems say for which version they hold.

## 3. Plan per property

| id | modelled | proof |
|---|---|---|
| C01–C03 | `Tag`, `TagWithParameters` | induction on strings / parameter lists; hash as a parameter; the int clause of C03 is refuted, the rest kept as partial; `C03_int_eq` says which ints a tag equals |
| C04 | `Who`, `who_map` | exhaustive table for members, `∀` strings for rejection; description clause refuted for five members |
| C05 | `Where.type` | case analysis on the cascade against the documented address grammar; refuted where documented forms fail; `C05_exact` gives the kind of every text |
| C06, C07, C08, C14 | `parse_message` with the eight regular expressions | regex denotation lemmas, then equivalence with a grammar on `*`-separated tags; C08 refuted with partial |
| C09, C10 | printing of every message class | round trips; exact side conditions, refuting witnesses for the general claims |
| C11 | `str.strip`, `str.count` | lemmas on stripping |
| C12 | `__eq__`, `__hash__` | equivalence laws; hashing refuted for GenericMessage |
| C13 | `.bytes` | invariants of printing; `##` clause refuted for tags containing `##`/ending in `#`, exact description |
| C15–C18 | `data_received`, queue | induction over frames and histories; C17 refuted; the harmless cuts characterised exactly (between frames, or just before a closing `##`) |
| C19–C21 | `OWNProtocol` as transition system | inductive invariants over all schedules; C20 refuted, partial without pauses |
| C22–C25 | `own_calc_pass` on `Int` | refinement to a `BitVec 32` register machine; each step a bijection |
| C26 | `hex_to_digits`, `digits_to_hex` | induction |
| C27, C28 | `hmac.py`, HMAC handshake | parametric in the hash; C28 refuted for every conforming gateway |
| C29–C34 | `BaseClient.start/send_message/read_message/close` | exhaustive characterisation of the conversations; trace invariants; C34 refuted |
| C35–C38 | `BaseItem` request/response methods | induction over reply streams; C38 refuted (late replies), partial for in-time replies |
| C39–C43 | item command methods | frame equations for all addresses and arguments against command tables from `docs/original`; refuted where they differ |
| C44–C53 | `Client.get_item`, `loop`, `_dispatch_callbacks`, `call_callbacks` | induction over histories; refuted where noted in section 5 |
| C54–C61 | `Gateway` encoders/decoders | round trips over a calendar model |
| C62–C66, C68 | `EnergyManagement`, `StopGo`, status queries | decoding lemmas, stream induction |
| C67 | backtracking matcher with a step counter | exponential lower bound for every length (refutation), linear upper bound on the texts that parse and on accepted packets |
| C69 | dimension frames with parameters | from the classification; refuted for requests and writings |
| C70 | actuator info replies | refuted on the documented reply, exact decoding |
| C71 | `get_netinfo`, `ipaddress` | bit-level model of networks and masks |
| C72 | light callbacks | which value is delivered for every WHAT |
| C73–C75 | energy and light queries | stream induction, exact float decoding; units refuted where they differ from the docstring |
| C76 | packets and the transport | what asyncio does with an exception out of `data_received`; refuted, partial |
| C77 | `_create_tasks` | refuted with a witness, exact prefix as partial |
| C78 | `loop` | case analysis on the state |
| C79 | camera callbacks | refuted for all histories |
| C80 | `Model/Concurrent`: several tasks on one client, `asyncio.Queue` with getters | transition system; invariants relating tasks in order of sending with answers in order of arrival; refuted for queries and for eager tasks |
| C81 | `Model/Heap`: objects and lists | invariant over all operation sequences; refuted for `GenericMessage` |
| C82, C83 | `start`/`close` over histories of connections | a frame lemma (what a coroutine does depends on the inbox only), counting of connections; C83 refuted |
| C84 | a query followed by a command | composition of the stream theorems with C35; refuted for undecodable replies |
| C85 | `get_item`, `loop(client=…)` | invariant over the cache and the trace for all histories, with the packets the events came from (`C47_origin`) |
| C86 | `parse` of the message classes | exact language of each; refuted for the claim |
| C87 | `start` and all it calls | case analysis of all runs; refuted by the documented HMAC handshake, exact description of the failures |
| C88 | `start` against a reactive OPEN gateway | gateway as a relation on histories; both directions from C23/C24; a witness conversation |
| C89 | commands and status queries of lights, dimmers and automations, against a simulated house | house as a transition relation on frames; invariant: all replies so far are taken; induction over programs |
| C90 | `Model/Loops`: any number of `loop()` calls, cancellation | an account (message, history at that moment) kept as an invariant over all histories; refinement to the one-loop model |
| C91, C92 | `start` | a function that computes the password from the trace; dependence on the digests only; exact description of the accepted conversations; refuted where authentication is one-sided |
| C93 | `start`, commands, `_single_dim_req` | compositional bound on messages taken; refuted for the getters |
| C94 | light callbacks, end to end | from the account of C90, by induction over the events; refuted on Python 3.13 |
| C95 | `bytes`, `data_received`, `parse_message` | composition of C10, C13, C15, C17; exact for single messages; refuted otherwise |
| C96 | `read_message`, `receive_messages`, several tasks | invariants of the queue and the waiters over all schedules |
| C97 | several event clients, `loop`, `on_status_change` | projection of a joint history on one client |
| C98 | all commands, getters and queries | set of exceptions, compositionally; refuted for getters |
| C99 | `Model/Concurrent` with cancellation | invariants over all interleavings; refuted for the next command |
| C100 | `_single_dim_req` | whole conversation; refuted with two witnesses |
| C101 | `Model/Construct`: the constructors | by cases over classes and arguments; refuted for `item.who` |
| C102 | `Model/Examples`: `script` (`start`, commands, `close`) | induction over the commands on top of C29 and C39; every outcome described |
| C103 | `Model/Examples`: the programs of `/repo/examples` that ask and print | induction over the questions and over the replies, on top of C57, C58, C60, C61, C68, C73 |
| C104 | `Model/Loops` with the registrations of a program first | the account of C90, per message; refuted on Python 3.13 and after a bad energy address |
| C105 | `Py/Int`, `Model/OpenAuth` | grammar of written integers in `Spec/Written`; scanning is inverse to spelling |
| C106 | `Model/Timed`: `read` | cases on the next arrival; induction over the calls |
| C107 | `Model/Timed`: `call` | a call that stops at its first timeout (`Patient`, closed under sequencing, induction for the streams) is `Punctual`; exact for commands and queries |
| C108 | `Model/Timed`: `writeTime` | refuted; induction over the looks at the lock |
| C109 | `Model/Client`: `Session.toMessage`, `Alg.toMessage`, `start` | case analysis of the handshake |
| C110 | `Model/Outcomes` | invariant: each task in at most one check, each check reports once |
| C111 | `Model/Socket` (below `Model/Timed`, above `Model/Protocol`) | composition of C15, C107 and C29 |
| C112 | `Model/Logs` (`start` with its log calls), `Spec/Logs` | refinement (erasing the log calls), then induction over the coroutines; C91 for the refutation |
| C113, C114 | `Model/LoopLogs` (the log calls beside `Model/Events`), `Spec/LoopLogs` | induction over the queue, with the invariants of C47 |
| C115, C116 | `Model/WireLogs` (the log calls beside `Model/Protocol`, `repr`), `Spec/WireLogs` | induction over the packets; injectivity of the texts; refinement of the send side of `Model/Protocol` |
| C117 | `Model/WireLogs`: `Handler` | induction over the history of the event loop |
| C118, C119 | `Model/Loss` (requests with congestion, loss of the connection and `close()`), `Spec/Loss` | invariant: who waits has written, or waits with nothing left to read; induction over every continuation; refinement of `Model/Concurrent` |
| C120 | `Model/ModelLogs`, `Spec/ModelLogs` | case analysis on the enumeration for every text; refinement of `Model/Gateway` |
| C121, C122, C123, C124 | `Model/Texts` (commands, queries and `start()` with the texts of their exceptions), `Model/Names` (`loop()`), `Spec/Texts` (which conversation is which failure) | simulation of `Model/Items` and `Model/Client`; induction over the replies of a query; inversion of the login |
| C125 | `Model/Names` | the invariant of `Model/Events` on histories; the class and the address are read off the text |
| C126 | `Model/Loops`, `Spec/Memory` (addresses that occur) | invariant: the cache has the addresses that occurred; pigeonhole for the number of items |
| C127 | `Model/Loops`, `Model/Commands`, `Spec/Relay` (frames passed on, news of an order) | composition of C39, C15 and C104 |
| C128 | `Model/Listen` (the queue between `start()` and `loop()`) | the rest of a packet is a packet; composition of C29, C107 and C104 |
| C129 | `Model/Loops` with `Model/Commands` | composition of the invariant of many loops, the table of items and C39 |
| C130 | `Model/Reconnect`: a client that is started again, loops that wait for a former connection | simulation of a new client with the same items and callbacks; then the account of C90; refuted for loops that waited |
| C131 | `Model/EventLoop`: a listening client, callbacks that command through another client, the ready list of asyncio | invariant over the handles; C104 for the calls; a fairness invariant for commands in any schedule; well-founded measure for rest; refuted: an answer taken by another command |
| C132 | `Model/OwnClasses`: classes and ITEM_TYPES entries of a program | simulation of the library-only loop (harmless), soundness of the dispatcher, account over all message lists with an invariant on the item dictionary |
| C133 | command table of C39 against a reader that stops at the first `##` | leftmost terminator by induction on the address; witnesses for addresses with `##` |
| C134 | two runs of start() with different numbers | injectivity of hexadecimal texts, digit transcription and UTF-8; no collision of the two texts as a hypothesis; replays with OPEN as witnesses |
| C135 | tasks with sequences of commands over the model of concurrent requests | invariant on the phase of every task over all histories; witness with two answers in a packet; order of requests and answers kept when answers come one at a time |
| C136 | programs as trees of calls over the model of calls in a house, a gateway with one connection per client | induction on the frames the gateway carried out, merge of the programs' calls; converse by induction on the turns |
| C137 | the getters of the model of queries beside the callbacks of the model of events | one answer drained by each getter, compared with the event of the same message; witnesses for the topics that differ |
| C138 | a lock in front of the model of concurrent requests | the lock gives the condition of C80 (no request begins while another is under way), as an invariant of all histories |
| C139 | as C138, with one history per connection | every connection left is a calm history of C80, one request given up, and late arrivals that nobody reads |
| C140 | the rounds of a generator with the caller's body between them (`Model/Nested`) | recursion on the queue, which the body only shortens; the frames of C39 and the answers of C35 |
| C141 | a loop around a command, with nothing or `start` between the attempts (`Model/Retry`) | induction on the attempts; the answers of C35, the logins of C29 |
| C142 | the plans of C136 | the order of C136; invariant: what the lamp is and whether the program has asked |
| C143 | the plans of C136 and the loops of C94 | the question falls at one moment; the last report, or else the state then, is the state at the end |
| C144 | the loop of C141 in the house of C136 | an order makes two houses the same iff they differ only in what it sets; other orders keep that |
| C145 | the plans of C136 | the houses in which the frames of one client are carried out are a sublist of the moments; an invariant of the orders that are left for the counterexample |
| C146 | Paced, on the clock of Timed | induction on the attempts, each by C107_command_exact |
| C147 | Onward, on the clock of Timed | induction on the commands; being one answer behind is an invariant |
| C148 | Catchup, on the clock of Timed | the reads end with a wait of d (induction on the arrivals), so an answer to a later command cannot be among those read |
| C149 | Renew, on the clock of Timed | induction on the commands; each connection has its own arrivals |

Every property of the list could be expressed; none is marked `not_applicable`.

## 4. What is modelled and what is not

Modelled: `pyown/tags`, `pyown/messages`, `pyown/protocol`, `pyown/auth`, `pyown/client`, `pyown/items` (base, lighting, automation,
camera, gateway, energy): the public methods, with these exceptions and simplifications.

* Log calls are modelled apart from the functions that make them: errors in callbacks (C110), `start()` (C112), `loop()` (C113, C114), the
  protocol and `_exception_handler` (C115–C117), the warnings about an unknown gateway model (C120).  The texts of exceptions are in `Model/Texts` and `Model/Names`, those of items in `Model/Names`.  Not modelled: the texts
  of exceptions Python raises, other than that of `int(password)`; `__repr__`/`__str__` of other objects; `main` of the programs in `/repo/examples` (their `run` is in
  `Model/Examples`), tests and docs.
* Not modelled: `bool` where an `int` is expected; access to underscore attributes.  Of classes the user derives from those of the
  library, only what `Model/OwnClasses` has (C132).
* Time is not measured in `Model/Client` and what is built on it: a silence either makes a pending timeout expire or it does not exist.  `Model/Timed`
  puts these calls on a clock (C93, C106, C107): arrivals have times, and only waiting takes time.  Connecting (`create_connection`) has no time limit in the code and is not timed.
* One coroutine at a time on a client in `Model/Client` and everything built on it; overlap is the subject of `Model/Protocol`
  (reads, writes) and `Model/Concurrent` (requests); `Model/Loss` adds congestion, the loss of the connection and `close()` (C118, C119).
* Cancellation: of readers in `Model/Protocol` (C18) of `loop()` in `Model/Loops` (C90) and of requests in `Model/Concurrent` (C99).
* `int(str)` for ASCII text only; non-ASCII digits can reach it only in the user's own password.  In C26 the digits of other scripts are a parameter.
* `datetime.now()` is a parameter.  `fold` of `datetime` is not modelled; a `tzinfo` is its offset.
* `loop()` is called at most once per client in `Model/Events`; any number of times in `Model/Loops`. `Model/Clients` has any number of clients that share the callbacks of the item classes (C97). `start()` is called once per client but in `Model/Reconnect` (C130), where it is one step.
* The cost model counts character tests.

Facts about CPython and asyncio that the model relies on (read from their documentation and source, not checked here):
an exception raised by `data_received` closes the transport; `transport.write` after the end of the connection drops the data without an
exception, and `resume_writing` is not called after it; an exception raised by `connection_made` is only reported;
`asyncio.Queue.put_nowait` wakes getters in order, and a woken getter tries again;
an `asyncio.Lock` is handed to those who wait for it in order, and nobody can take it in between (C138);
`Future.set_result` raises `InvalidStateError` on a done future; `enum` lookup by value; `type.__subclasses__()` lists direct subclasses in
order of definition; `$` in a pattern matches before a final newline; the greedy backtracking order of `re`; `int()` refuses more than 4300 digits, and
its `ValueError` quotes `repr` of the text, of which it keeps 200 characters.

## 5. Findings: claims that are false of the code

Each row is a theorem that the code violates the property, and what holds instead.

| id | claim | refuted by | in words |
|---|---|---|---|
| C03 | Tag equality is a congruence with str and agrees with hashing | `C03_int_hash_refuted`, `C03_int_trans_refuted` | Holds for tags and strings; refuted for ints: Tag('5') == 5 but the hashes differ, and == is not transitive through a tag. C03_int_eq says exactly which ints a tag equals. |
| C04 | WHO codes parse to exactly the listed systems and every system has a description | `C04_name_refuted` | Codes proved; the description clause is refuted: five members have no entry in who_map, .name raises KeyError. |
| C05 | Where.type classifies every documented light address form | `C05_local_bus_refuted` | Private riser addresses proved, GENERAL and AMBIENT exact; refuted for documented local-bus addresses (0#4#Int and #G#4#Int raise ValueError). C05_exact gives the kind of every address text. |
| C08 | Unknown WHO yields a GenericMessage | `C08_unknown_who_refuted` | Refuted: an unknown WHO raises ValueError. Partial: exact description of when. |
| C09 | Printing a parsed frame gives the frame back | `C09_print_parse_refuted` | Refuted for dimension frames with a '#' in the dimension and no values, and writings to parameterised dimensions; the partial theorem is an iff. |
| C10 | Parsing a printed message gives the message back | `C10_parse_print_refuted` | Refuted; the partial theorem characterises exactly which messages survive the round trip. |
| C12 | Message equality, hashing and copies | `C12_hash_refuted` | Equality proved; hash clause refuted for GenericMessage (TypeError). |
| C13 | A message built from valid tags is one ASCII frame | `C13_one_terminator_refuted` | C13_constructed states it of every message that can be made through the constructors. Byte-level claim proved; the single-terminator clause is refuted (Tag('1##') is accepted) with an exact characterisation. |
| C14 | ACK and NACK are recognised only by their constant strings | `C14_class_parse_refuted` | parse_message clause proved; ACK.parse(['#','0']) is accepted, so the class-parser clause is refuted. |
| C17 | TCP segmentation does not change what is received | `C17_segmentation_refuted` | Refuted: a frame cut in two is delivered as a different message. C17_cuts is the exact statement: a stream of frames is received as its messages, with the connection alive, if and only if every cut falls between frames or just before the closing ## of one. |
| C20 | Concurrent sends leave in call order | `C20_order_refuted` | Refuted: a sleeping sender is overtaken. Proved for calls that do not overlap. |
| C27 | The HMAC strings follow the protocol's formula | `C27_server_order_refuted` | Refuted for the server string: the code hashes Rb,Ra,Kab, the documentation says Ra,Rb,Kab. Proved: client string, actual server string, key length, unknown algorithms, for all hash and HMAC functions. |
| C28 | HMAC authentication succeeds with a gateway that follows the protocol | `C28_conforming_gateway_refuted`, `C28_bare_confirmation_refuted` | Refuted: every gateway that follows the documented HMAC messages is rejected, for all passwords, keys and hash functions; so is the same confirmation without the leading '#'. The partial theorem says exactly which confirmation tags are accepted. |
| C34 | A failed authentication leaves the session unusable | `C34_failed_start_still_sends_refuted`, `C34_failed_start_unusable_refuted` | Refuted for every failing handshake on a command session; partial: no connection, event session, or after close(). |
| C38 | A command's outcome reflects the gateway's answer to that command | `C38_late_answer_refuted` | Refuted: after a late ACK the next command succeeds whatever the gateway says about it. Proved when answers are in time or missing; in general the k-th command reports the k-th event of the queue. |
| C39 | Each high-level command sends the frame the protocol documents | `C39_turn_on_30_min_refuted`, `C39_free_resources_refuted` | Proved for 57 of 59 commands at every address. Refuted for turn_on_30_min (WHAT 17 is documented as 30 seconds) and free_resources (*7*9## instead of *7*9*##). |
| C40 | Dimmer commands with a speed or amount send the documented frame | `C40_speed_refuted`, `C40_amount_refuted`, `C40_documented_frame_refuted` | Refuted: with a speed or an amount the four methods always raise ValueError, because with_parameter on a WhatLight member looks the text up among the members. Out-of-range and no-argument behaviour is proved. |
| C41 | Range-checked light settings | `C41_white_temperature_refuted`, `C41_temporization_refuted` | set_hsv and set_brightness_with_speed proved in full. set_white_temperature writes dimension 13, documented is 14 (refuted). temporization_command refuses 24 to 255 hours, which the documents allow (refuted). |
| C42 | Parameterised energy commands send the documented frame | `C42_daily_refuted` | All one-argument commands, defaults and negative arguments proved. The daily report sends day#month where the documents have month#day (refuted for every day different from the month). |
| C46 | No event received from the gateway can stop the event loop | `C46_refuted` | Refuted: an energy event from an undocumented address raises InvalidTag (or IndexError) out of loop(). The partial theorem is exact: the loop survives a queue iff every message in it is harmless. |
| C47 | Every registered callback of the event's item class is called once, in registration order | `C47_refuted` | Proved for Python up to 3.12 (partial); refuted for 3.13 and later, where the chained classmethod/property no longer works: no callback is ever started in any history. The supported range is >=3.11. C47_origin traces every start back to a frame in a packet received before. |
| C48 | Callbacks for different events and item classes do not interfere | `C48_class_refuted` | Registrations for one event never change what another event starts (proved). Refuted in the class clause: callbacks registered on Dimmer are called with Light items; the partial theorem has families in place of classes. |
| C50 | Light dimension events reach the matching callback | `C50_never_refuted`, `C50_luminosity_refuted`, `C50_wrong_refuted` | HSV proved. Refuted for the others: dimension 2, 14 events are ignored, luminosity is looked up under dimension 8 and temporization under dimension 1. |
| C51 | Energy callbacks fire for the events they are registered for | `C51_parameters_refuted`, `C51_never_refuted` | Four energy values, the level and the actuator info (as one value) are delivered. Refuted: every event with parameters in its dimension is ignored, so six of the registration methods can never have an effect, in any history. |
| C52 | Gateway callbacks receive the item and the decoded value | `C52_text_refuted` | Time, date, datetime, IP address and uptime are delivered as the getter returns them. Refuted for the text values, which are spread into one argument per character. C52_documented_partial and C52_nonsense say it from the values on the wire, with a specification of their own. |
| C53 | loop() ends when the connection drops | `C53_refuted`, `C53_close_refuted` | Refuted in three ways (lost, closed, malformed packet) for every continuation, and close() with a message pending raises AttributeError. The partial theorem says exactly when a lost connection ends the loop. Cancellation of the task is not a step of the model. |
| C56 | Times with a timezone survive the round trip through the gateway format | `C56_roundtrip_refuted`, `C56_three_digits_refuted` | Refuted: the field has four digits, of which three are read back; the round trip holds exactly for offsets 0 and -2 hours. Decoding of documented replies is proved; C56_get_time_exact says of every reply whether get_time succeeds and with what. |
| C57 | Date-times survive the round trip through the gateway format | `C57_roundtrip_refuted` | Refuted for every datetime: seven fields are written, the eighth is missing when read back. Decoding of documented replies is proved; C57_get_datetime_exact says of every reply whether get_datetime succeeds and with what. |
| C59 | The MAC address is reported in the usual hexadecimal form | `C59_mac_refuted` | Refuted for every address: the octets stay decimal. The partial theorem says what is returned. |
| C60 | Unknown gateway models are reported as GENERIC, known ones exactly | `C60_h4684_refuted` | Refuted for the documented code 13. All other codes and all other texts proved. |
| C62 | An energy item is typed by its address and bad addresses raise InvalidTag | `C62_invalid_tag_refuted` | Which addresses are accepted, and as what type, is proved exactly. Refuted in the exception: an actuator address without its parameter (71) raises IndexError instead of InvalidTag; C62_other_partial gives the exception for every other address. |
| C63 | Stop&Go status requests decode the documented status mask | `C63_mask_refuted` | The documented answer (mask followed by the thirteen single bits) is decoded correctly for every mask. Refuted for the mask reply alone: its binary text is read as a decimal number; the partial theorem says exactly what is decoded. |
| C64 | Stop&Go status events decode the documented status mask | `C64_refuted` | Refuted: the mask is read from the wrong end. C64_partial gives the status delivered for every mask, C64_refuted says it is right exactly for the palindromic masks. |
| C67 | Parsing time is polynomial in the packet size | `C67_exponential_refuted`, `C67_refuted` | Refuted for texts that are no frames: exponential lower bound for every length, hence no polynomial bound. For every text that parses, and every packet that is accepted, the bound is linear (C67_valid_partial, C67_packet_partial); the patterns of the message classes are linear on every text (C67_classes). Cost is the number of character tests of a backtracking matcher with CPython's strategy, proved to decide the same language as the model's matcher. |
| C69 | Frames with a parameterised DIMENSION are classified by direction | `C69_parameterised_dimension_refuted` | Refuted for requests and writings in general; proved for responses with values. |
| C70 | Actuator info is readable from the documented reply | `C70_documented_refuted`, `C70_asked_refuted` | Refuted for every documented reply: IndexError. Only one value of six digits is readable. |
| C74 | Dimension queries of lights write the documented request and decode every reply | `C74_working_time_refuted` | Four queries proved. request_working_time_lamp sends dimension 3, documented is 8 (refuted). |
| C75 | Energy amounts are returned in the unit the documentation promises | `C75_totalizer_unit_refuted` | Refuted: 2000 Wh are returned as 2000. The partial theorem says the raw number is returned. |
| C72 | Light status callbacks get True exactly when the light is on | `C72_dimmed_refuted` | What is delivered is proved for every WHAT: True iff WHAT is 1. Refuted for the dimming levels. |
| C76 | A malformed packet costs only itself | `C76_events_refuted`, `C76_later_packets_refuted` | Refuted: an exception out of data_received makes asyncio close the transport. The partial theorem says that everything received before is kept. C76_events_refuted: after a bad packet an event client goes on exactly as if no later packet had been sent. |
| C77 | A callback that raises does not keep the other callbacks from being called | `C77_refuted` | Refuted with a witness; the partial theorem says that the callbacks before the first raising one are started. |
| C79 | Camera callbacks are called for camera events | `C79_refuted`, `C79_never_refuted` | Refuted: ITEM_TYPES has no entry for WHO 7, so no camera event starts anything and camera callbacks are never called in any history. C79_dispatch_partial: given a camera item and a camera frame, the dispatcher itself would call every callback registered for that event, with the item and the message. |
| C80 | Requests made at the same time on one client do not get each other's answers | `C80_requests_isolated_refuted`, `C80_commands_any_schedule_refuted` | Refuted under the ordinary asyncio scheduling: a status request and a command begun while it waits share the messages, so the command raises ResponseError although it was acknowledged. Partial: commands only under FIFO scheduling (any number under way), and any requests one at a time. Without FIFO scheduling (eager tasks) even commands swap answers (C80_commands_any_schedule_refuted). C80_same_as_alone: a request that is alone behaves as in the model of items. |
| C81 | Message objects do not change | `C81_immutable_refuted` | Refuted for GenericMessage, which keeps the caller's list. Proved for everything parse_message returns and for messages made from tuples; the copy made by .tags is proved for every message. |
| C83 | close() leaves no connection open | `C83_close_refuted` | Exact count of connections left open for every history. Refuted by a failed start that is tried again: the first transport is overwritten without being closed. Partial: no start replaces a connection. |
| C84 | A query that was given up does not disturb the next command | `C84_after_query_refuted` | Refuted: Automation.get_status raises ValueError and leaves the closing ACK, which the next (refused) command takes for its own. Partial: queries read to their end with decodable replies; the other two cases are characterised exactly. |
| C86 | parse() of a message class accepts exactly the tags of that kind of frame | `C86_class_parse_refuted` | Refuted: extra tags are ignored, the '#' that tells the kinds apart is not required, missing tags raise IndexError. Partial: exact description of what each class parser accepts; GenericMessage.parse in full, with the exception. |
| C87 | A failed start() raises TimeoutError or one of the library's own exceptions | `C87_conforming_gateway_refuted` | Refuted: an HMAC gateway that follows the documents makes start() raise ValueError. Partial: a failed start() raises TimeoutError, InvalidAuthentication, or ValueError in two situations that are described exactly, in both directions. |
| C91 | What start() writes does not give the password away | `C91_open_refuted` | Refuted for OPEN: a function computes the password from any handshake with a challenge other than zeros. Partial: without a one-tag challenge, clients whose passwords have the same digests behave identically. |
| C92 | A successful start() shows that the gateway knows the password | `C92_open_refuted`, `C92_free_refuted` | Refuted: gateways that send fixed messages are accepted (OPEN, and no authentication at all). Partial: with HMAC the last message must be the HMAC of the client's key, the gateway's key and the hash of the password. |
| C93 | start(), commands and single-value getters wait for a bounded number of messages | `C93_single_duration_refuted`, `C93_single_refuted` | start() takes at most 4 messages, a command 1 (full). Refuted for getters built on _single_dim_req, which read until the gateway acknowledges. On a clock: start() at most 20 s after connecting, a command at most 5 s, such a getter longer than any bound. |
| C94 | A table kept by a light status callback shows the last status received for each light | `C94_mirror_refuted` | Refuted on Python 3.13 and later (no callback is ever started). Partial: Python up to 3.12, callbacks that start. C94_reports_partial: the same in terms of the frames of the documentation. |
| C95 | Messages written by one protocol object are received by another as they were | `C95_wire_refuted` | Refuted: requests for parameterised dimensions, tags with '##', tags ending in '#'. Partial: the messages that keep their meaning, described exactly (C95_alone_partial), for every grouping into packets of whole frames. |
| C98 | Commands and getters raise only TimeoutError and the library's own exceptions | `C98_getters_refuted` | Commands: full. Refuted for getters: cut or nonsensical values raise IndexError, ValueError or OverflowError. Partial: no other exception of Python is raised by any getter or query. |
| C99 | A cancelled request does not disturb the ones after it | `C99_next_command_refuted` | Refuted: the answer to a cancelled command is reported by the next command. Partial: a cancelled request takes nothing more and does not end. |
| C100 | A getter returns an answer to its own question | `C100_own_answer_refuted` | Refuted: the first dimension message is taken whatever it is about; get_ip can return the netmask, a meter the power of another. Partial: if all messages of the exchange are about the question, so is the one returned. |
| C101 | An item is made for the WHO and the address it is given | `C101_reported_refuted` | Messages, addresses and exceptions: full, for all classes. Refuted for item.who: it is the WHO of the class even if another was given, and from Python 3.13 on no WHO at all. |
| C104 | A program that listens is told of every event once, in order, with its address and its values | `C104_python_refuted`, `C104_address_refuted` | Refuted from Python 3.13 on (nobody is told anything) and after an energy event from an address that is not documented (the loop ends). Partial: full on Python up to 3.12 with documented energy addresses, once the queue is empty. |
| C108 | send_message spaces messages by its delay | `C108_refuted` | Refuted: the delay is only slept while the transport is congested. Partial: exactly when a message is written; less than a delay after congestion ends for good; never if congestion is over only between the looks. |
| C110 | An exception raised in a callback is logged once and disturbs nothing else | `C110_hanging_refuted`, `C110_unstarted_refuted` | Refuted in two ways: a callback of the same event that does not end keeps the exceptions of the others out of the log; and when calling a later callback raises at once, the tasks of those before it are never looked at (asyncio itself may complain when they are collected). Partial: exactly what is logged for each event when all calls make tasks. The log tells the truth, each exception at most once, and which callbacks are started does not depend on how others end: proved in full. |
| C111 | On the socket, calls are the documented bytes, and succeed on the documented bytes | `C111_cut_refuted` | Refuted: an ACK divided into two packets makes a command raise ResponseError, unless the division is just before the final ##. Partial: packets of whole frames, with white space, in any grouping and with any timing; the bytes written in every case. |
| C112 | The log of a connection is no secret, and tells no secrets | `C112_debug_refuted` | Refuted at DEBUG with OPEN authentication: challenge and answer are both logged, and determine the password. At INFO and above the claim holds in full (C112_shown, C112_alike); at DEBUG, unless the gateway sends a one-tag challenge, the log depends on the password only through its digests. |
| C113 | loop() drops no event without a word | `C113_light_refuted` | Refuted: dimensions of lights other than 1, 8, 12 and 13, and the energy dimensions 1200 and 251 to 263, are dropped silently. Partial: exactly which events leave no record; everything that is logged about each event of a run. |
| C114 | "Item not found for message" is logged for messages without an item | `C114_notfound_refuted` | Refuted: the warning is only ever logged for messages whose item is there (the callbacks raised, or Python is 3.13 or later); messages without an item are logged as "Item type not supported", at INFO. |
| C115 | Nothing that is received and thrown away is thrown away without a trace | `C115_neighbours_refuted`, `C115_unknown_who_refuted` | Refuted in two ways: good frames in a packet with a refused one are neither delivered nor logged, and the frames after it; a frame with an unknown WHO raises ValueError, which data_received does not catch, so no warning is logged and only the exception (which names the WHO) at ERROR. Partial: exactly what is logged about every refused packet; a packet of one frame that is none is quoted; a packet that is no ASCII is covered by C115_not_ascii_partial. |
| C117 | Making a client takes no error report away from the program | `C117_refuted` | Refuted: Client(...) replaces the handler of the event loop, close() does not put it back, and reports without an exception (such as asyncio's of a pending task that is destroyed) are dropped silently. Partial: nothing changes without a client; a handler set afterwards is called. |
| C118 | A request that reports success was written to the connection | `C118_refuted`, `C118_history_refuted` | Refuted: after the loss of the connection transport.write drops data without an exception, so a command that finds a left-over ACK reports success with nothing written. Partial: it holds in every history in which no message is unread when the connection is lost, unless the client was closed before. Without loss, close and congestion the model is that of Model/Concurrent (C118_open). |
| C119 | When the connection ends, the requests under way end | `C119_waits_refuted`, `C119_stuck_refuted`, `C119_new_stuck_refuted`, `C119_paused_refuted`, `C119_reading_refuted` | Refuted: connection_lost wakes nobody. A read goes on until its own timeout or cancellation; a request suspended in protocol.send_message because writing is paused, or begun there, never ends unless cancelled, as resume_writing is not called any more and send_message has no timeout. Partial: a waiting read ends with TimeoutError when its timeout expires; with no message left nothing succeeds any more. |
| C120 | A gateway model the library does not know is told in the log | `C120_h4684_refuted` | Refuted for the documented code 13, about which the library warns. Partial: everything else. The specification lists the codes of the enumeration and of the documents as literals. |
| C121 | A ResponseError says what the gateway answered and what was expected | `C121_query_refuted` | Refuted for queries: _check_nack says of a NACK that it was received 'instead of NACK'. Commands satisfy the claim; queries do for every other answer, and the text quotes the answer always. |
| C122 | The text of a failed login tells what went wrong | `C122_open_refuted`, `C122_hmac_refuted` | Refuted for 'Invalid password': with OPEN it is said of any answer but an ACK, with HMAC also when the gateway accepted the client and its own proof is wrong. C122_exact says which conversations have which text, for all of them. |
| C123 | No exception of start() contains the password | `C123_refuted` | Refuted with OPEN authentication: the ValueError of int(password) quotes a password that is no number. Partial: if the password is a number the exceptions of the package have one of five fixed texts, and a password of digits is in none; exceptions of Python on what the gateway sent are not given a text in the model. |
| C125 | The text of an item tells it from the other items of its client | `C125_gateway_refuted` | Refuted for the gateway, of which get_item gives one object for each address asked for while all have the empty address. Partial: items of the other kinds; the class and the address can always be read off. |
| C126 | What a client remembers grows with the addresses it meets, not with the number of events | `C126_queue_refuted` | Refuted for the events: after an event from an impossible energy address has ended loop(), the connection stays open and every further event is kept. The claims about items are proved in full, and a loop that waits again has left no event behind. |
| C127 | The orders of one program reach the callbacks of another | `C127_refuted` | Refuted for dimming to a level, timed and blinking lights, of which callbacks are told that they are off. Partial: Python up to 3.12, orders that switch lights and move or stop shutters; packets of whole frames. |
| C130 | A client that is started again goes on listening | `C130_waiting_refuted` | C130_as_new_partial is a simulation between a restarted client and a new one with the same items and callbacks; C130_account_partial says the same with the specification of C90. C130_quiet and C130_waiting_refuted: a loop that waited never hears of the new connection (read_message waits for the queue of the old protocol). C130_abandoned and C130_switch: start() without the end of the connection; what the old connection has received and nobody waits for is never handled, and a loop that waited takes one more message from there. C130_once links the model to that of C90. |
| C131 | A program of rules gives its commands once, in the order of the events, and each reports its own answer | `C131_own_refuted` | Model/EventLoop joins Model/Loops and Model/Concurrent by the list of ready handles of asyncio. C131_commands (order, once, all), C131_rest (the event loop comes to rest), C131_reports (reports in the order of the answers; all report) hold in every schedule. C131_own_refuted: the interleaving in which a callback takes the answer of an earlier command is one that asyncio's own order allows, without eager tasks (compare C80). C131_own_partial: what holds when no callback begins while a reader is woken. |
| C132 | A program can add item classes of its own | `C132_own_refuted` | Refuted: without an entry in ITEM_TYPES a class is told of nothing, for a WHO of the library only of what the library's class raised on, derived indirectly never, and from Python 3.13 on never. Partial: a direct subclass, alone with its WHO, entered in ITEM_TYPES, that does not raise, on Python up to 3.12, is told of everything. C132_harmless and C132_camera are full. |
| C133 | A text from outside used as an address cannot turn a command into another | `C133_address_refuted`, `C133_two_frames_refuted` | Refuted: an address with ## is accepted; a command then goes to the part before it, and a setting becomes a status request and a second frame made of the values. Partial: for every fixed command the gateway reads that command once, at a prefix of the text; at the text itself if it has no ## and no # at its end. |
| C134 | A login that was listened to cannot be repeated | `C134_open_gateway_refuted`, `C134_open_client_refuted` | Refuted for OPEN: what the gateway said once is a login whatever the client draws, and challenges that differ in zeros have one answer. Partial: with HMAC a repeated gateway is refused with InvalidAuthentication by a client with another token, and the frames a client writes differ if the gateway number differs, provided the two texts compared are no collision of the HMAC (a hypothesis on hashlib/hmac, stated as NoCollision). |
| C135 | Tasks that each give several commands keep their order and get their own answers | `C135_own_refuted` | C135_order is full: it covers timeouts and cancellations too. Refuted for the reports: two tasks, two answers in one packet; the refused command reports success and the acknowledged one raises. Partial: every answer is read before the next arrives and before another task begins, nothing times out. |
| C137 | Asking and listening agree | `C137_differ_refuted`, `C137_full_refuted` | Refuted: a dimmed light is told as off where the getter says nothing, the level of a dimmer comes as a bool, the temporization, brightness, white temperature, totalizers and energy per month are not told, and texts of the gateway come as single characters. Partial: the shutter, HSV, time, date, IP, uptime, date and time, power, energy, month, day, actuator and level in full; lights told as on or off. |
| C138 | A lock around each request keeps the answers apart | `C138_full_refuted` | Refuted: an answer that comes after the timeout of its request goes to the next request, lock or not. C138_turns and C138_handed hold in every history, with timeouts and cancellations; the claims about answers hold if no timeout expires and nothing is cancelled. The lock is CPython's, part of the trusted base. |
| C140 | A program may give a command for each value while it reads the replies of a query | `C140_while_reading_refuted`, `C140_shifted_refuted` | Refuted for a command inside async for: C140_next_reply says what happens for all replies and answers, C140_shifted_refuted for a query with one reply. Partial: the query is read to its end first (any number of replies, any answers), no reply gives a value (C140_no_value_partial), or only the last one does (C140_one_partial). The claim C140_full is stated of the program as a parameter. |
| C141 | A command may be tried again after a timeout | `C141_late_answer_refuted` | Refuted on one connection for every number of attempts: the late ACK of the first attempt ends the program, and the ACK of the second is taken for the answer to the next command. C141_attempts and C141_bounded hold for everything that arrives. Partial: no attempt is given up, or start() is called before each further attempt and succeeds. |
| C142 | Programs that switch a lamp to what it is not leave it as the number of times says | `C142_lost_refuted` | Refuted: with two programs both questions may come before both orders (the frames are those of C136_every_order, so the library does this). Partial: one program, n times, the others leave the lamp alone; or any number of programs, each order next after its question. The gateway is the specification of a house of C89. |
| C143 | A program that listens and asks once knows which lamps are on | `C143_stale_refuted` | Refuted: the answer may be older than a report that was missed or already handled, and stays in the table. Partial: all reports are handled after the answer. C143_table_partial joins C136 (the question), C94 (the table of the callback) and C128 (nothing is lost between start() and loop()); Python up to 3.12. The gateway is the house of C89 and reports at least the changes. |
| C144 | An order that is tried again works once | `C144_twice_refuted` | Refuted: a frame that was answered too late has worked, and the second one works again after the order of somebody else. Partial: the last frame counts for the house (C144_last_partial), and alone the order works once (C144_alone_partial). C144_plan joins the loop of C141 to the programs of C136. The gateway is the house of C89; orders that depend on the state (steps of a dimmer) are not in it. |
| C145 | A program is told how several lamps are at one moment | `C145_each_refuted` | Refuted for questions one after the other: between them the other program turns off the lamp that was asked and turns on the other. Partial: one request to an address of many lamps (C145_at_once_partial, for every call of every program, with the moments in order), and lamps that nobody else switches (C145_still_partial). The gateway is the house of C89, which answers a request at one moment; no call times out. |
| C147 | A program that goes on after a failed command is told the answer to each command | `C147_own_refuted` | The claim is refuted (C147_own_refuted): the first order is acknowledged after 5.5 seconds, the second is refused, and the program is told that the second succeeded. C147_exact says for all arrivals how messages are handed out, and C147_lag which message each command is told; C147_in_time_partial is the claim while answers are in time; C147_behind_partial says that after one late answer every further command is told the answer to the one before. On the clock of C106/C107: only waiting and sleeping take time. |

## 6. Trusted base

* The Lean 4.33.0 kernel.
* The axioms of Lean used below; the project adds none, uses no `sorry`, no `native_decide`, no `bv_decide`.
* The reading of the Python source, and of CPython and asyncio, embodied in `Verif/Py` and `Verif/Model` (section 4).
* The transcription of the documentation in `Verif/Spec`.

The unit tests of the repository, the only executable account of the code at hand, are replayed on the model in `Verif/RepoTests.lean`.
That is a check of the transcription on their inputs; no property rests on it.

Axioms of each property theorem, as reported by `Lean.collectAxioms`:

* no axioms (11): C03_int_hash_refuted, C03_int_trans_refuted, C04_name_distinct, C04_name_refuted, C106_read_closed, C106_read_forever, C13_one_terminator_refuted, C27_unknown_algorithm_partial, C42_defaults, C56_naive, C57_naive
* `propext` (66): C04_code_injective, C04_who_codes, C05_general_iff, C09_print_parse_refuted, C101_given, C101_reported_partial, C101_reported_refuted, C102_cases, C102_not_open, C103_not_open, C104_address_refuted, C109_algorithm, C109_session, C110_others, C112_erase, C116_debug, C116_sent_debug, C117_logged, C117_untouched_partial, C122_same, C124_command, C124_loop, C124_read, C125_gateway_refuted, C126_queue_partial, C12_hash_refuted, C144_plan, C14_class_parse_refuted, C15_trailing_hash, C16_append_only, C16_atomic, C17_segmentation_refuted, C20_order_refuted, C21_first_wins, C21_repeat_raises, C21_transport_is_latest, C25_hash_prefix_large, C34_failed_start_unusable_refuted, C35_answer_total, C35_no_session, C36_no_session, C37_no_session, C39_frame_unique, C40_amount_refuted, C40_documented_frame_refuted, C40_speed_refuted, C44_failure, C46_ended, C46_refuted, C47_only_events, C48_class_refuted, C60_h4684_refuted, C61_version, C62_invalid_tag_refuted, C69_parameterised_dimension_refuted, C71_requests, C75_totalizer_unit_refuted, C76_earlier_partial, C76_later_packets_refuted, C77_refuted, C78_invalid, C78_lost, C79_dispatch_partial, C86_class_parse_refuted, C89_last_order, C90_cancelled
* `Quot.sound`, `propext` (109): C02_with_bad_parameter, C02_with_parameter, C04_name_partial, C101_bad_address, C101_get_item, C101_text_or_tag, C101_total, C103_custom1_cases, C105_numeral, C106_read, C107_calls, C107_command_exact, C107_dimension, C107_query_exact, C107_sequence, C107_start, C107_status, C108_once_partial, C108_refuted, C108_soon_partial, C108_starved_partial, C108_when_partial, C10_parse_print_refuted, C111_cut_refuted, C111_queue, C116_sent, C116_sent_readable, C117_refuted, C117_set_again, C118_acknowledged, C118_closed, C118_history_refuted, C118_open, C118_refuted, C119_answered_partial, C119_timeout_partial, C11_whitespace, C11_whitespace_ok, C120_names, C121_command, C121_query_partial, C121_readable, C125_readable, C130_abandoned, C130_switch, C130_waiting_refuted, C131_own_refuted, C132_camera, C132_sound, C133_refused, C138_full_refuted, C138_handed, C138_served_partial, C138_turns, C13_one_terminator_partial, C141_attempts, C141_bounded, C141_first_partial, C146_answered, C146_unanswered, C147_behind_partial, C147_in_time_partial, C148_sharp, C16_all_or_nothing, C16_non_ascii, C18_fifo, C18_read_oldest, C19_no_write_while_paused, C26_not_hex, C26_odd, C26_reverse, C26_roundtrip, C27_client_partial, C27_create_key_partial, C27_server_partial, C32_stops_talking, C36_every_inbox, C36_lazy, C37_every_inbox, C41_temporization_refuted, C53_refuted, C56_three_digits_refuted, C60_model_partial, C61_version_short, C67_matcher, C76_events_refuted, C77_prefix_partial, C80_commands_any_schedule_refuted, C80_requests_isolated_refuted, C80_same_as_alone, C81_immutable_partial, C81_immutable_refuted, C81_tags_copy, C82_as_new, C82_reconnect, C90_cancel, C93_command, C93_command_duration, C93_duration, C93_methods, C93_start, C93_start_duration, C94_mirror_refuted, C95_wire_refuted, C96_once, C98_stop_go_given_partial, C99_cancel_partial, C99_next_command_refuted, C99_next_partial
* `Classical.choice`, `Quot.sound`, `propext` (426): C01_tag_int, C01_tag_negative, C01_tag_str, C02_tag_decomposition, C02_with_parameter_int, C02_with_parameters, C03_eq_hash_partial, C03_int_eq, C03_trans_partial, C05_ambient_iff, C05_exact, C05_local_bus_points, C05_local_bus_refuted, C05_riser_partial, C06_invalid_iff, C06_no_other_error, C07_classified, C07_fields, C07_rows, C07_tags, C07_unique, C08_unknown_who_partial, C08_unknown_who_refuted, C09_print_parse_partial, C09_print_parse_strip, C100_own_answer_partial, C100_own_answer_refuted, C101_energy, C101_sends, C102_all, C102_camera, C102_event, C102_refused, C102_shutter, C102_stops, C103_custom1, C103_custom1_address, C103_custom1_quiet, C103_custom1_short, C103_custom2, C103_custom2_bad, C103_custom2_cases, C103_gateway, C103_light, C103_meter, C103_report, C103_stops, C104_listener_partial, C104_python_refuted, C105_means, C105_other, C105_start, C105_unique, C106_again, C106_order, C107_commands, C107_getters, C107_read, C109_handshake, C10_parse_print_partial, C110_at_end_partial, C110_hanging_refuted, C110_logged_partial, C110_once, C110_unstarted_refuted, C111_command_partial, C111_query_partial, C111_start_partial, C112_alike, C112_debug_partial, C112_debug_refuted, C112_exact, C112_ready, C112_shown, C113_failed, C113_light_refuted, C113_logged, C113_one, C113_silent_partial, C114_from313, C114_notfound_refuted, C114_unsupported_partial, C115_alone_partial, C115_neighbours_refuted, C115_not_ascii_partial, C115_refused_partial, C115_unknown_who_refuted, C116_readable, C116_received, C116_repr, C118_written_partial, C119_fails_partial, C119_new_stuck_refuted, C119_paused_refuted, C119_reading_refuted, C119_stuck_refuted, C119_waits_refuted, C11_which, C120_event, C120_event_generic, C120_get_model, C120_h4684_refuted, C120_same, C120_told_partial, C121_no_data, C121_query_refuted, C121_same, C122_exact, C122_hmac_refuted, C122_open_refuted, C122_password_partial, C122_said, C123_digits_partial, C123_fixed_partial, C123_refuted, C125_same_partial, C126_bound, C126_exact, C126_only, C126_queue_refuted, C127_partial, C127_possible, C127_refuted, C128_same, C128_told, C129_event_client, C129_react, C12_bytes, C12_eq_iff, C12_equivalence, C12_hash_partial, C130_account_partial, C130_as_new_partial, C130_once, C130_quiet, C131_acknowledged, C131_commands, C131_own_partial, C131_reports, C131_rest, C132_harmless, C132_item, C132_own_refuted, C132_told_partial, C133_address_refuted, C133_command_partial, C133_two_frames_refuted, C134_client_partial, C134_gateway_partial, C134_open_client_refuted, C134_open_gateway_refuted, C135_order, C135_own_partial, C135_own_refuted, C136_every_order, C136_one_order, C137_differ_refuted, C137_full_refuted, C137_light_partial, C137_same_partial, C138_own_partial, C139_order, C139_own, C139_served, C13_bytes, C13_constructed, C140_after_reading_partial, C140_next_reply, C140_no_value_partial, C140_one_partial, C140_shifted_refuted, C140_while_reading_refuted, C141_anew_partial, C141_late_answer_refuted, C141_next_partial, C142_alone_partial, C142_lost_refuted, C142_turns_partial, C143_known_partial, C143_stale_refuted, C143_table_partial, C144_alone_partial, C144_last_partial, C144_twice_refuted, C145_at_once_partial, C145_each_refuted, C145_still_partial, C146_bounded, C147_exact, C147_lag, C147_own_refuted, C148_discard, C148_own, C148_time, C149_all, C149_own, C14_ack_nack, C14_class_parse_partial, C15_packet_of_frames, C16_blank, C17_cuts, C17_merge_partial, C17_segmentation_partial, C19_at_most_once, C19_progress, C19_sleeping_distinct, C20_order_partial, C22_answer_32bit, C22_answer_32bit_text, C23_int_nonce, C23_register_algorithm, C23_text_password, C24_injective, C24_recover, C24_surjective, C25_hash_prefix, C25_insert_zero, C25_nondigit, C25_only_zeros, C25_zeros_irrelevant, C27_server_order_differs_partial, C27_server_order_refuted, C28_accepted_partial, C28_bare_confirmation_refuted, C28_conforming_gateway_refuted, C29_start_iff, C30_password_only_after_challenge, C30_session_first, C30_session_text, C31_independent_of_password, C31_unsupported_algorithm, C32_unfinished_handshake, C32_unreachable, C33_connected_after_history, C33_read, C33_send, C34_failed_start_partial, C34_failed_start_still_sends_refuted, C35_bad_text, C35_command, C35_normal, C35_normal_tag, C35_writing, C35_writing_empty, C36_status_stream, C37_dimension_stream, C37_single, C38_in_time_partial, C38_late_answer_refuted, C38_positional, C39_command_table_partial, C39_free_resources_refuted, C39_turn_on_30_min_refuted, C40_partial, C41_brightness, C41_hsv, C41_temporization_partial, C41_white_temperature_partial, C41_white_temperature_refuted, C42_daily_partial, C42_daily_refuted, C42_instant_power, C42_negative, C42_negative_second, C42_one_argument, C43_display_dial, C44_class, C44_distinct, C44_same, C44_success, C45_between, C45_skipped, C46_iff_partial, C47_first_partial, C47_origin, C47_partial, C47_refuted, C47_sound, C48_family_partial, C48_registration, C49_isolated, C49_without, C50_hsv_partial, C50_luminosity_refuted, C50_never_refuted, C50_wrong_refuted, C51_actuator_partial, C51_float_partial, C51_level_partial, C51_never_refuted, C51_parameters_refuted, C52_documented_partial, C52_nonsense, C52_text_refuted, C52_value_partial, C53_close_refuted, C53_pending_partial, C54_date_roundtrip, C54_get_date, C54_get_date_exact, C55_one_day, C55_weekday, C56_documented_reply, C56_get_time, C56_get_time_exact, C56_roundtrip_partial, C56_roundtrip_refuted, C57_documented_reply_partial, C57_get_datetime, C57_get_datetime_exact, C57_roundtrip_refuted, C58_getters, C58_ip_error, C58_ip_exact, C58_netmask, C58_netmask_error, C59_mac_partial, C59_mac_refuted, C60_get_model, C61_getters, C61_uptime, C61_uptime_errors, C62_documented, C62_iff, C62_other_partial, C62_stop_go, C63_documented, C63_mask_partial, C63_mask_refuted, C64_partial, C64_refuted, C65_given_messages, C65_last_wins, C65_own_dimension, C65_unknown_dimension, C66_positions, C66_request, C66_shapes, C67_classes, C67_exponential_refuted, C67_packet_partial, C67_refuted, C67_valid_partial, C68_automation, C68_dimmer, C68_light, C68_total, C69_never_by_direction, C69_response_partial, C70_asked_partial, C70_asked_refuted, C70_documented_refuted, C70_one_value_partial, C71_get_netinfo, C71_netinfo, C71_octets, C72_dimmed_refuted, C72_status_partial, C73_float, C73_getters, C73_level, C73_totalizers, C73_totalizers_decoded, C74_queries_partial, C74_working_time_partial, C74_working_time_refuted, C75_raw_partial, C78_waits, C79_never_refuted, C79_refuted, C80_commands_partial, C80_one_at_a_time_partial, C83_close_partial, C83_close_refuted, C83_exact, C84_after_bad_reply, C84_after_break, C84_after_query_partial, C84_after_query_refuted, C85_callback, C85_get, C85_many, C85_many_one_client, C85_one_client, C86_dimension_request_partial, C86_dimension_values_partial, C86_generic, C86_normal_partial, C86_status_partial, C87_conforming_gateway_refuted, C87_failures_partial, C87_value_error, C88_login_iff, C88_login_succeeds, C88_zero_challenge, C89_served, C89_states, C90_once, C90_one_loop, C90_restart, C90_resume, C91_hmac_partial, C91_open_refuted, C92_free_refuted, C92_hmac_partial, C92_open_refuted, C92_other_password_partial, C93_single_duration_refuted, C93_single_refuted, C94_mirror_partial, C94_reports_partial, C95_alone_partial, C95_wire_partial, C96_accounted, C96_ends_once, C96_no_lost_wakeup, C96_served, C97_independent, C97_others_do_not_matter, C98_commands, C98_energy_partial, C98_gateway_partial, C98_getters_refuted, C98_queries_partial, C98_stop_go_partial, C99_takes_nothing_partial

## 7. Testing the theorems against wrong programs

`seeded/LOG.jsonl` has one line per attempt: in a scratch copy of the project one definition of the model was changed as a programmer
could get it wrong, the project was rebuilt, and the property theorems that failed (directly, or because a lemma they depend on
failed) were recorded.  Where a claim that the change makes false was still provable, the theorem was tightened and the attempt repeated.

How to read a line: a theorem counts as failed when its proof, or that of a lemma it depends on, no longer checks.  That does not by itself
show that its statement is false of the changed model; a proof can break on a change that leaves the statement true.  A plain build does not
reach the modules behind a failing one; in the later runs the failing proofs were set aside until every module had been built.
`claims_with_no_failed_theorem` lists the claims named beforehand of which no theorem failed.  In most of these the claim was named too widely
and the theorems of another property failed.  A theorem is listed under `tightened` only if a run of the same edit showed it to fail.
