{"id": "C01", "title": "Packet encode/decode round-trip", "statement": "UnmarshalPacket applied to the bytes MarshalPacket produces returns a Packet with the same Command and the same Data, whatever the payload contains (including any arrangement of 0x07 bytes).", "quantifier": "every command byte and every payload of at most 255 bytes", "why_tests_cant": "the space of payloads is 256^255; tests try a handful of 0x07 patterns", "anchors": ["libcomfo/proto.go:MarshalPacket", "libcomfo/proto.go:UnmarshalPacket", "libcomfo/proto.go:escapeData", "libcomfo/proto.go:unescapeData"]}
{"id": "C02", "title": "Payload size limit is exactly 255", "statement": "MarshalPacket fails (with the too-long error and no bytes) exactly when the payload has more than 255 bytes, and never otherwise; so nothing is ever sent for an oversized packet, by WritePacket or QueryPacket.", "quantifier": "every packet", "why_tests_cant": "a boundary on an unbounded length; tests only try 256", "anchors": ["libcomfo/proto.go:MarshalPacket", "libcomfo/conn.go:WritePacket"]}
{"id": "C03", "title": "Exact wire format of a frame body", "statement": "MarshalPacket's output is 0x00, the command, the unescaped payload length, the payload with every 0x07 doubled and nothing else changed, and a final byte equal to (command + length + sum of payload + 173) mod 256; its length is 4 + n + (number of 0x07 bytes in the payload).", "quantifier": "every packet with at most 255 payload bytes", "why_tests_cant": "tests compare a few literal frames", "anchors": ["libcomfo/proto.go:MarshalPacket", "libcomfo/proto.go:escapeData", "libcomfo/proto.go:calculateChecksum"]}
{"id": "C04", "title": "UnmarshalPacket is total and only accepts consistent frames", "statement": "For every byte string UnmarshalPacket returns without panicking, and it succeeds exactly when the string has at least 4 bytes, its third byte equals the length of the unescaped payload and its last byte is the right checksum; on every failure it returns the zero Packet.", "quantifier": "every byte string of every length", "why_tests_cant": "arbitrary (malformed) input of any length", "anchors": ["libcomfo/proto.go:UnmarshalPacket", "libcomfo/proto.go:verifyChecksum"]}
{"id": "C05", "title": "Any single corrupted byte is caught", "statement": "If any one byte of a marshalled frame other than the leading 0x00 is replaced by a different byte, UnmarshalPacket returns an error; replacing the leading byte leaves the result unchanged. A corrupted frame is never decoded as a different packet.", "quantifier": "every packet, every byte position, every replacement byte", "why_tests_cant": "number of (packet, position, replacement) triples is unbounded for testing; interaction with 0x07 escaping is subtle", "anchors": ["libcomfo/proto.go:UnmarshalPacket", "libcomfo/proto.go:unescapeData", "libcomfo/proto.go:calculateChecksum"]}
{"id": "C06", "title": "Frames are uniquely decodable", "statement": "Two packets that differ in command or payload never produce frames one of which is a prefix of the other (so the wire format is unambiguous to a length-directed receiver), and re-marshalling a successfully unmarshalled frame whose first byte is 0x00 and whose payload escapes are all paired gives back the identical bytes.", "quantifier": "every pair of packets, every accepted frame", "why_tests_cant": "quantifies over pairs of arbitrary frames", "anchors": ["libcomfo/proto.go:MarshalPacket", "libcomfo/proto.go:UnmarshalPacket"]}
{"id": "C07", "title": "Reads do not depend on chunking", "statement": "The result of ReadPacket depends only on the sequence of bytes the unit sends, not on how the serial line or TCP stack splits them into reads (as long as none of the waits times out and the reply is within the 64 KiB scanner limit).", "quantifier": "every byte stream and every way of splitting it into non-empty reads", "why_tests_cant": "exponentially many chunkings; tests deliver everything in one read", "anchors": ["libcomfo/conn.go:ReadPacket", "libcomfo/conn.go:ScanTimeout"]}
{"id": "C08", "title": "A well-formed reply is never misread", "statement": "When the unit answers with ACK followed by the frame of some packet p, ReadPacket returns p itself or an error; it never returns a different packet without an error, regardless of payload contents, chunking, trailing bytes or timer.", "quantifier": "every packet p with at most 255 payload bytes, every chunking into non-empty reads, trailing data and timer outcome", "why_tests_cant": "payload/escape combinations are unbounded", "anchors": ["libcomfo/conn.go:ReadPacket", "libcomfo/proto.go:UnmarshalPacket"]}
{"id": "C09", "title": "Every well-formed reply can be received", "statement": "When the unit answers in time with ACK followed by the frame of packet p, ReadPacket returns p. (Violated by the code: a 0x07 length or payload byte followed by 0x0F, 0xF0 or 0xF3 in the frame is taken for a frame delimiter.)", "quantifier": "every packet p with at most 255 payload bytes and every chunking", "why_tests_cant": "requires knowing exactly which of 256^255 payloads break framing", "anchors": ["libcomfo/conn.go:ReadPacket"]}
{"id": "C10", "title": "ReadPacket always returns and never panics", "statement": "For every sequence of reads the connection can produce (data, empty reads, errors with or without data, or nothing until the timer fires) ReadPacket returns a value and/or an error and never panics or loops forever.", "quantifier": "every reader behaviour (finite or stalled), every timer outcome", "why_tests_cant": "adversarial readers of unbounded length", "anchors": ["libcomfo/conn.go:ReadPacket", "libcomfo/conn.go:ScanTimeout", "libcomfo/conn.go:WaitTimeout"]}
{"id": "C11", "title": "Silence is reported as a timeout", "statement": "If fewer delimiters than the exchange needs arrive before the query timer fires (and the connection is not closed), the query fails with the timeout error, and no data from a partial reply is returned.", "quantifier": "every partial reply and chunking, both kinds of query", "why_tests_cant": "all truncation points of all replies", "anchors": ["libcomfo/conn.go:ReadPacket", "libcomfo/conn.go:WaitTimeout", "libcomfo/conn.go:ScanTimeout"]}
{"id": "C12", "title": "Unexpected bytes before the ACK or the frame start are rejected", "statement": "If any byte precedes the first delimiter, or lies between the first and the second delimiter of an expected reply, the query fails with the scan-input error and returns no packet. (Violated for 65535 and more bytes without a delimiter: the scanner gives up and the query takes that for an acknowledgement. Up to 65534 it holds.)", "quantifier": "every stream with such bytes, every chunking", "why_tests_cant": "arbitrary noise", "anchors": ["libcomfo/conn.go:ReadPacket"]}
{"id": "C13", "title": "A set command only succeeds if the unit acknowledged it", "statement": "SetSpeed, SetComfort, SetFanProfiles and SetFanProfile return nil only if the unit sent an ACK (0x07 0xF3) for the set command. (Violated: a closed or failing connection, over 64 KiB of delimiter-free noise, or a start/end delimiter instead of an ACK are all taken as success.)", "quantifier": "every reader behaviour, every timer outcome, every command", "why_tests_cant": "needs every connection failure point and every reply", "anchors": ["libcomfo/conn.go:ReadPacket", "libcomfo/conn.go:QueryPacket", "libcomfo/conn.go:ScanTimeout", "libcomfo/message.go:setQuery"]}
{"id": "C14", "title": "A get only succeeds with a matching, checksummed reply", "statement": "If a Get* call returns without error then the bytes received contained a delimited frame whose command is the request's command plus one, whose length and checksum verify, and whose payload decodes to exactly the returned structure; in particular a closed connection, an empty reply or a reply to another command is an error.", "quantifier": "every reader behaviour, every timer outcome, all eight getters", "why_tests_cant": "every possible byte stream from the unit", "anchors": ["libcomfo/conn.go:QueryPacket", "libcomfo/message.go:getQuery", "libcomfo/message.go:DecodeResponse", "libcomfo/api.go:GetFans"]}
{"id": "C15", "title": "What a query puts on the wire", "statement": "A query writes the request frame (0x07 0xF0 body 0x07 0x0F) first; it writes the two-byte ACK exactly once, after the reply has been validated, and never when the query failed earlier; a successful query has written exactly frame plus ACK. If the writes succeed, the whole frame is sent whatever the unit does, and if the reply is valid the query succeeds.", "quantifier": "every packet, every reader and writer behaviour, every timer outcome", "why_tests_cant": "all failure points of the exchange", "anchors": ["libcomfo/conn.go:WritePacket", "libcomfo/conn.go:WriteAck", "libcomfo/conn.go:QueryPacket"]}
{"id": "C16", "title": "Write errors abort the query", "statement": "If writing the request fails, the query returns that error, reads nothing from the connection and sends no ACK; if writing the ACK fails or is short, the query reports an error.", "quantifier": "every packet and every writer/reader behaviour", "why_tests_cant": "all crash points of the writer", "anchors": ["libcomfo/conn.go:WritePacket", "libcomfo/conn.go:WriteAck", "libcomfo/conn.go:QueryPacket"]}
{"id": "C17", "title": "Getters never panic", "statement": "None of the eight Get* calls panics, for any bytes the unit may send: a reply that passes the command check always has the Go type the getter asserts, and no payload slicing goes out of range.", "quantifier": "every reader behaviour, every payload length, all eight getters", "why_tests_cant": "panic freedom is over all inputs", "anchors": ["libcomfo/api.go:GetTemperatures", "libcomfo/api.go:GetBootloader", "libcomfo/message.go:DecodeResponse", "libcomfo/response_types.go:ResponseType", "libcomfo/message.go:leftPad32"]}
{"id": "C18", "title": "Temperature readings", "statement": "Each temperature reported by GetTemperatures is floor(b/2) - 20 of its wire byte b, hence a whole number of degrees in [-20, 107] that is never above and less than one degree below the exact value b/2 - 20; byte 5 of the payload is ignored.", "quantifier": "every 9-byte payload", "why_tests_cant": "2^72 payloads", "anchors": ["libcomfo/message.go:temperature.UnmarshalBinary", "libcomfo/response_types.go:Temps.UnmarshalBinary"]}
{"id": "C19", "title": "Comfort temperature range and round-trip", "statement": "SetComfort(v) sends (v+20)*2 for v <= 107 and a unit that stores that byte reports exactly v degrees back; if the unit acknowledges the command the call succeeds; for v > 107 it fails with the too-high error and performs no I/O. The temperature type itself refuses whole degrees outside -20 to 107 and otherwise reads back what it has written.", "quantifier": "every uint8 v, every connection", "why_tests_cant": "all values with all connection behaviours", "anchors": ["libcomfo/api.go:SetComfort", "libcomfo/message.go:temperature.MarshalBinary", "libcomfo/request_types.go:setComfortT"]}
{"id": "C20", "title": "Fan speed command range", "statement": "SetSpeed(v) sends command 0x99 with payload [v] for v <= 4, whatever the unit does, and succeeds if the unit acknowledges it; for v > 4 it fails with the too-high error and performs no I/O.", "quantifier": "every uint8 v, every connection", "why_tests_cant": "all values with all connection behaviours", "anchors": ["libcomfo/api.go:SetSpeed", "libcomfo/request_types.go:setSpeedT"]}
{"id": "C21", "title": "Fan RPM conversion", "statement": "GetFans reports RPM = floor(1875000 / w) for each big-endian 16-bit period w, and fails with the zero-value error if either period is 0. (Violated for w <= 28: the quotient is truncated to 16 bits and a wrong speed is reported silently.)", "quantifier": "every 6-byte payload", "why_tests_cant": "2^48 payloads; the overflow region is tiny", "anchors": ["libcomfo/response_types.go:Fans.UnmarshalBinary"]}
{"id": "C22", "title": "Operating hours are 24/16-bit big-endian counters", "statement": "GetHours reports each counter as the big-endian value of its documented bytes, without overflow or sign issues, and rejects any payload that is not 20 bytes.", "quantifier": "every payload of every length", "why_tests_cant": "2^160 payloads", "anchors": ["libcomfo/response_types.go:Hours.UnmarshalBinary", "libcomfo/message.go:leftPad32"]}
{"id": "C23", "title": "Device name is trimmed", "statement": "GetBootloader/GetFirmware report versions from bytes 0-2 and the device name as the longest-trimmed contiguous part of bytes 3-12: no leading or trailing Unicode white space remains, and only white space was removed.", "quantifier": "every payload of every length", "why_tests_cant": "2^104 payloads including multi-byte white space and invalid UTF-8", "anchors": ["libcomfo/response_types.go:BootInfo.UnmarshalBinary"]}
{"id": "C24", "title": "Fan profile layout agrees between get and set", "statement": "The eight percentages sent by SetFanProfiles, stored by the unit in its documented layout and read back with GetFanProfiles, come back in the same fields; Lookup(1..4) returns the in/out pair of away/low/mid/high and fails for any other speed. The command is sent whatever the unit does, and the call succeeds if it is acknowledged.", "quantifier": "every FanProfiles value, every reply payload", "why_tests_cant": "2^64 profile values, permutations of byte positions", "anchors": ["libcomfo/request_types.go:FanProfiles.MarshalBinary", "libcomfo/response_types.go:FanProfiles.UnmarshalBinary", "libcomfo/response_types.go:FanProfiles.Lookup"]}
{"id": "C25", "title": "SetFanProfile is a precise read-modify-write", "statement": "libcomfo.SetFanProfile(mode, speed) rejects mode > 3 or speed > 100 without any I/O; otherwise it reads the profiles and writes them back with exactly the in and out percentage of that mode replaced and the other six unchanged; if the read fails nothing is written, and if the command is acknowledged the call succeeds.", "quantifier": "every mode, speed, profile reply, reader and writer behaviour", "why_tests_cant": "all combinations of stored profiles and failures", "anchors": ["libcomfo/api.go:SetFanProfile", "libcomfo/api.go:GetFanProfiles", "libcomfo/request_types.go:FanProfiles.MarshalBinary"]}
{"id": "C26", "title": "Bypass and error flags", "statement": "GetBypass reports bytes 2, 3, 4 as factor, level, correction and summer mode iff byte 6 is 1; GetErrors reports a filter error iff byte 8 is 1; payloads of any other length are rejected.", "quantifier": "every payload of every length", "why_tests_cant": "all payloads", "anchors": ["libcomfo/response_types.go:Bypass.UnmarshalBinary", "libcomfo/response_types.go:Errors.UnmarshalBinary"]}
{"id": "C27", "title": "Transactions on the line never interleave", "statement": "With any number of goroutines issuing queries, the bytes of one query (request, reply, ACK) are never interleaved with those of another: the I/O on the connection is a sequence of complete transactions.", "quantifier": "every number of goroutines, every list of queries, every schedule", "why_tests_cant": "schedules", "anchors": ["libcomfo/conn.go:QueryPacket"]}
{"id": "C28", "title": "Concurrent SetFanProfile calls lose no update", "statement": "For any number of concurrent SetFanProfile calls and any schedule, the profiles stored in the unit after they finish are those of executing the calls one after the other in some order; calls on different modes all take effect.", "quantifier": "every set of calls and every schedule", "why_tests_cant": "schedules", "anchors": ["libcomfo/api.go:SetFanProfile", "libcomfo/conn.go:QueryPacket"]}
{"id": "C29", "title": "SetFanProfiles is atomic with respect to SetFanProfile", "statement": "A concurrent SetFanProfiles and SetFanProfile leave the unit as if one ran after the other. (Violated: SetFanProfiles does not take the API mutex and its update can be lost.)", "quantifier": "every schedule", "why_tests_cant": "a specific interleaving is needed", "anchors": ["libcomfo/api.go:SetFanProfiles", "libcomfo/api.go:SetFanProfile"]}
{"id": "C30", "title": "No deadlock among API calls", "statement": "For any number of concurrent RPC handlers and cache-worker iterations, as long as some call is unfinished some goroutine can make a step: the mutexes are always acquired in a consistent order and always released.", "quantifier": "every number and mix of calls, every schedule", "why_tests_cant": "schedules", "anchors": ["comfoserver/server.go:SetFanSpeed", "comfoserver/server.go:SetComfortTemp", "comfoserver/server.go:SetFanProfile", "comfoserver/caches.go:Update", "comfoserver/caches.go:UpdatePoll", "libcomfo/conn.go:QueryPacket", "libcomfo/api.go:SetFanProfile"]}
{"id": "C31", "title": "FlushCache answers go to the right caller", "statement": "With any number of concurrent FlushCache RPCs, each caller gets the answer to its own request: true for a known cache type, false for an unknown one, after its own flush has run.", "quantifier": "every number of clients, every request, every schedule", "why_tests_cant": "schedules over two unbuffered channels", "anchors": ["comfoserver/server.go:FlushCache", "comfoserver/caches.go:FlushCaches", "comfoserver/timers.go:CacheWorker"]}
{"id": "C32", "title": "FlushCache is served", "statement": "While FlushCache RPCs are pending, the worker and callers can always make progress until every caller has its answer; no request is lost or served twice.", "quantifier": "every number of clients, every schedule", "why_tests_cant": "schedules", "anchors": ["comfoserver/server.go:FlushCache", "comfoserver/caches.go:FlushCaches", "comfoserver/timers.go:CacheWorker"]}
{"id": "C33", "title": "A timeout does not poison later queries", "statement": "After a query has timed out, a later query that the unit answers correctly and in time succeeds. (Violated: the reader goroutine of the timed-out query stays blocked in Read and swallows the start of the next reply; with replies arriving in one read every later query times out, forever.)", "quantifier": "every history of queries and timeouts", "why_tests_cant": "unbounded histories, leaked goroutines", "anchors": ["libcomfo/conn.go:ScanTimeout", "libcomfo/conn.go:ReadPacket", "libcomfo/conn.go:QueryPacket"]}
{"id": "C34", "title": "Served data is free of data races", "statement": "No RPC reads or writes a cache concurrently with a conflicting access. (Holds for the Get* RPCs against all cache updates; violated by SetComfortTemp, SetFanSpeed, SetFanProfile and UpdatePoll, which read cache fields without the cache lock.)", "quantifier": "every number and mix of RPCs, every schedule", "why_tests_cant": "schedules", "anchors": ["comfoserver/protobuf.go:Protobuf", "comfoserver/caches.go:Update", "comfoserver/caches.go:UpdatePoll", "comfoserver/server.go:SetComfortTemp", "comfoserver/server.go:SetFanSpeed"]}
{"id": "C35", "title": "Cache refresh is all-or-nothing", "statement": "A cache refresh either replaces the whole cached value by the newly decoded reply and stamps it with the time the refresh started, or (on any error) leaves value and time stamp exactly as they were; other caches are untouched.", "quantifier": "every cache, every prior state, every reader/writer behaviour", "why_tests_cant": "all failure points", "anchors": ["comfoserver/caches.go:Update"]}
{"id": "C36", "title": "Fresh caches cause no traffic", "statement": "A non-forced refresh of a cache updated at most 4.5 s ago does no I/O and changes nothing; if it was updated more than 4.5 s ago, or never, or the refresh is forced, the unit is queried.", "quantifier": "every pair of time stamps, every state", "why_tests_cant": "boundary over all times", "anchors": ["comfoserver/caches.go:isStale", "comfoserver/caches.go:Update"]}
{"id": "C37", "title": "Served data always came from the unit", "statement": "At every point of every history of refreshes, flushes, ticks and RPCs, each Get* RPC returns either the zero value (never successfully read) or exactly the value decoded from the reply to the most recent successful refresh of that cache. The zero value is the message with no field set.", "quantifier": "every history", "why_tests_cant": "unbounded histories", "anchors": ["comfoserver/caches.go:Update", "comfoserver/caches.go:FlushCaches", "comfoserver/timers.go:CacheWorker", "comfoserver/protobuf.go:Protobuf", "comfoserver/server.go:GetTemps"]}
{"id": "C38", "title": "Bounded age of temperatures and fan speeds", "statement": "If every query succeeds, the worker handles fast ticks at most 5 s apart, then at any time after start-up the served temperatures and fan speeds were read at most 9.5 s before the last tick bound (a skipped refresh was at most 4.5 s old), regardless of forced refreshes in between.", "quantifier": "every timing of ticks and forced refreshes", "why_tests_cant": "unbounded timing histories", "anchors": ["comfoserver/timers.go:CacheWorker", "comfoserver/caches.go:isStale", "comfoserver/caches.go:Update"]}
{"id": "C39", "title": "modifySpeed yields 1-4 or InvalidArgument", "statement": "A FanSpeedTarget resolves to a speed in 1..4 or to an InvalidArgument error; Abs and Rel together are always rejected; Rel steps exactly one up from the cached mode, an empty target exactly one down, with no wrap-around.", "quantifier": "every cached mode and every target", "why_tests_cant": "256 x 2^32 x 2 inputs with 8-bit wrap-around", "anchors": ["comfoserver/helpers.go:modifySpeed"]}
{"id": "C40", "title": "SetFanSpeed rejects every out-of-range Abs", "statement": "SetFanSpeed with Abs outside 1..4 (and Rel unset, Abs non-zero) fails with InvalidArgument and sends nothing. (Violated: Abs is truncated to 8 bits, so e.g. 257 selects speed 1.)", "quantifier": "every 32-bit Abs and every state", "why_tests_cant": "2^32 inputs", "anchors": ["comfoserver/helpers.go:modifySpeed", "comfoserver/server.go:SetFanSpeed"]}
{"id": "C41", "title": "SetFanSpeed's report is truthful about the wire", "statement": "If SetFanSpeed returns Modified=true then the unit was sent exactly one set-speed command, carrying the reported target speed, and the fans were afterwards read at the percentages of that speed's cached profile; if it returns Modified=false or InvalidArgument then nothing at all was sent. (Violated in one case: if every fan query after the command fails but an older reading already matches, success is reported.)", "quantifier": "every state, every target, every reader/writer behaviour", "why_tests_cant": "all states and failure points", "anchors": ["comfoserver/server.go:SetFanSpeed", "comfoserver/caches.go:UpdatePoll"]}
{"id": "C42", "title": "A successful SetFanSpeed means the unit runs at that speed", "statement": "When SetFanSpeed(Abs=n) succeeds, the unit is set to speed n. (Violated when the cached mode is stale: nothing is sent. This happens when the mode was changed on the wall panel, and also after a SetFanSpeed that failed while waiting for the fans, because that error path skips the refresh.)", "quantifier": "every history of external changes and cache refreshes", "why_tests_cant": "histories", "anchors": ["comfoserver/server.go:SetFanSpeed"]}
{"id": "C43", "title": "SetFanProfile RPC rejects every out-of-range argument", "statement": "SetFanProfile with Mode outside 1..4 or TargetSpeed outside 15..100 fails with InvalidArgument and sends nothing. (Violated: both are truncated to 8 bits first, so Mode=257, TargetSpeed=306 rewrites profile 1 to 50 %.)", "quantifier": "every pair of 32-bit arguments and every state", "why_tests_cant": "2^64 inputs", "anchors": ["comfoserver/server.go:SetFanProfile"]}
{"id": "C44", "title": "SetFanProfile RPC maps modes 1-4 to the right profile", "statement": "For Mode in 1..4 and TargetSpeed in 15..100 that differs from the cached in-percentage, the profile frame sent has exactly the in and out percentage of that mode set to TargetSpeed; if equal, nothing is sent and Modified=false; the panic branch is unreachable.", "quantifier": "every state, every argument, every reader/writer behaviour", "why_tests_cant": "off-by-one between 1-4 and 0-3 over all states", "anchors": ["comfoserver/server.go:SetFanProfile", "libcomfo/api.go:SetFanProfile"]}
{"id": "C45", "title": "SetComfortTemp validation and effects", "statement": "SetComfortTemp rejects values above 255 with InvalidArgument and without I/O; values 108..255 that differ from the cached one fail with an Internal error without I/O; otherwise it sends the comfort command iff the value differs from the cached comfort temperature, and reports Modified accordingly with the requested target. (Violated for a negative cached comfort temperature: its conversion to uint8 is not defined by Go; on amd64 a request for 251 is reported as already set when −5 °C is cached.)", "quantifier": "every 32-bit value, every state, every reader/writer behaviour", "why_tests_cant": "2^32 inputs times states", "anchors": ["comfoserver/server.go:SetComfortTemp", "libcomfo/api.go:SetComfort"]}
{"id": "C46", "title": "FlushCache touches only the requested cache", "statement": "FlushCache(t) queries the unit for exactly the requested cache (or all six for All, none for an unknown type) and leaves all other caches unchanged; Success is true iff the type is known.", "quantifier": "every request, every state, every reader/writer behaviour", "why_tests_cant": "states and failure points", "anchors": ["comfoserver/caches.go:FlushCaches", "comfoserver/caches.go:UpdateCaches"]}
{"id": "C47", "title": "FlushCache Success means fresh data", "statement": "If FlushCache reports Success=true the requested cache holds data just read from the unit. (Violated: errors from the unit are only logged and Success is still true.)", "quantifier": "every reader/writer behaviour", "why_tests_cant": "failure points", "anchors": ["comfoserver/caches.go:FlushCaches", "comfoserver/caches.go:Update"]}
{"id": "C48", "title": "Polling after a speed change is bounded and releases its lock", "statement": "After a speed change the server queries the fans at most 10 times, stops at the first reading that matches the target profile, reports a poll failure only after 10 mismatches, and never returns with the profile lock held.", "quantifier": "every state, every reader/writer behaviour, every target", "why_tests_cant": "all reply sequences", "anchors": ["comfoserver/caches.go:UpdatePoll", "comfoserver/server.go:SetFanSpeed"]}
{"id": "C49", "title": "RPC messages lose nothing", "statement": "The protobuf message returned by each Get* RPC determines the cached value: every field is carried over unchanged (8/16-bit values widened to 32 bits).", "quantifier": "every cached value", "why_tests_cant": "all values of all fields", "anchors": ["comfoserver/protobuf.go:Protobuf"]}
{"id": "C50", "title": "The Python client never sends invalid values", "statement": "set_fan_speed, set_comfort_temperature and configure_fan_profile raise locally, without contacting the server, for every argument outside their documented ranges; values they do send pass the server's checks without truncation.", "quantifier": "every integer argument", "why_tests_cant": "unbounded integers", "anchors": ["python/comfo/client.py:set_fan_speed", "python/comfo/client.py:set_comfort_temperature", "python/comfo/client.py:configure_fan_profile", "comfoserver/helpers.go:modifySpeed", "comfoserver/server.go:SetFanProfile"]}
{"id": "C51", "title": "increase/decrease_fan_speed report truthfully", "statement": "increase_fan_speed and decrease_fan_speed return False exactly when the server rejects the step as out of bounds (nothing sent), return True only if the speed command was sent, and re-raise every other error.", "quantifier": "every server state and unit behaviour", "why_tests_cant": "all states", "anchors": ["python/comfo/client.py:increase_fan_speed", "python/comfo/client.py:decrease_fan_speed", "comfoserver/server.go:SetFanSpeed"]}
{"id": "C52", "title": "Async variants use the given event loop", "statement": "The async_* methods of a Comfo object constructed with an explicit loop run on that loop. (Violated: an explicit loop is never stored, so every async_* call raises AttributeError.)", "quantifier": "every way of constructing the client", "why_tests_cant": "constructor paths are untested", "anchors": ["python/comfo/client.py:__init__", "python/comfo/client.py:async_ping"]}
{"id": "C53", "title": "Only POST requests on the ten routes reach a handler", "statement": "An HTTP request reaches an RPC handler exactly when its method is POST and its path is /twirp/comfo.api.Comfo/<one of the ten methods> with a JSON or protobuf content type; the handler reached is the one named by the path. Every other request is answered without a single step touching caches, locks, channels or the unit: with bad_route below the prefix of the service, else with 404, or with a redirect if the path is not canonical (empty elements, . or .., no slash at the beginning); a redirect leads to a canonical path, with the same names if there was no .. in it, so that no path is redirected twice. A body that cannot be decoded is answered malformed, likewise without effect.", "quantifier": "every method, path and content type string", "why_tests_cant": "all strings", "anchors": ["rpc/comfo/comfo.twirp.go:ServeHTTP", "rpc/comfo/comfo.twirp.go:parseTwirpPath"]}
{"id": "C54", "title": "Connection mode selection", "statement": "ConnectUnit dials TCP only for mode tcp, opens a serial port only for mode serial, and fails for every other mode without touching the network or any device; a failed attempt is reported as such, and on failure no connection is returned.", "quantifier": "every mode string and every dial/open outcome", "why_tests_cant": "all strings", "anchors": ["comfo.go:ConnectUnit"]}
{"id": "C55", "title": "Getters return a well-formed reply", "statement": "When the unit acknowledges and answers with a frame of the right command whose payload decodes, whose bytes contain no delimiter sequence inside, and no write fails and no timer fires early, the getter returns exactly the decoded structure, however the bytes are chunked and whatever follows them; it has sent exactly the request and one ACK then. A getter that fails returns a structure in which every field is zero, empty or false.", "quantifier": "all eight getters, every payload, every chunking, every trailing bytes", "why_tests_cant": "all payloads times all chunkings", "anchors": ["libcomfo/api.go:GetTemperatures", "libcomfo/conn.go:ReadPacket", "libcomfo/conn.go:QueryPacket", "libcomfo/message.go:getQuery"]}
{"id": "C56", "title": "A failed speed change cannot be reported to the client", "statement": "A SetFanSpeed call that fails because the fans did not reach the target takes at least 5 s, which is the HTTP server's WriteTimeout, so its error response is never delivered in time.", "quantifier": "every state, every target, every reader/writer behaviour", "why_tests_cant": "It is a statement about every timing and every unit behaviour; a test would have to wait out the real timers for each.", "anchors": ["comfoserver/caches.go:UpdatePoll", "comfo.go:main"]}
{"id": "C57", "title": "Answers come from the wire", "statement": "In every interleaving of any number of requests with the cache worker, and for every behaviour of the connection, what a Get* RPC answers is either what the cache held when the server started or decodes from the payload of a reply that is present, with matching command, length and checksum, in the bytes the unit sent.", "quantifier": "every schedule and every script of chunks, stalls, failures and short writes", "why_tests_cant": "schedules and byte streams are unbounded; needs the reader, the decoder, the caches and the locks together", "anchors": ["libcomfo/conn.go:ReadPacket", "libcomfo/conn.go:QueryPacket", "comfoserver/caches.go:Update", "comfoserver/protobuf.go:Protobuf"]}
{"id": "C58", "title": "Answers do not go back in time", "statement": "A Get* request that arrives after a refresh of its cache has succeeded (by the worker, a flush or a setter) answers with the value of that refresh or of a later one; while nothing is written to the unit, all Get* requests of a cache that arrive get the same answer.", "quantifier": "every schedule", "why_tests_cant": "races between refreshes and readers", "anchors": ["comfoserver/caches.go:Update", "comfoserver/protobuf.go:Protobuf", "comfoserver/server.go:GetTemps"]}
{"id": "C59", "title": "A successful SetComfortTemp means the unit is set to that temperature", "statement": "When SetComfortTemp(x) succeeds, the comfort temperature of the unit is x degrees. (Violated when the cached comfort temperature is stale, e.g. it was changed on the wall panel: nothing is sent.)", "quantifier": "every history of requests, external changes and lost commands, every schedule", "why_tests_cant": "histories and schedules", "anchors": ["comfoserver/server.go:SetComfortTemp", "libcomfo/api.go:SetComfort"]}
{"id": "C60", "title": "The Python client returns what the server holds", "statement": "Each get_* method of the Python client returns an object whose fields, each under its own name, are exactly those of the value of the corresponding cache that was current at one moment while the server handled the request: nothing is exchanged, truncated or changed on the way.", "quantifier": "every getter, every cached value, every schedule", "why_tests_cant": "all values times all schedules, across two languages", "anchors": ["python/comfo/types.py:BootInfo", "python/comfo/types.py:FanProfiles", "python/comfo/client.py:get_temps", "comfoserver/protobuf.go:Protobuf"]}
{"id": "C61", "title": "Answers of the handlers are delivered", "statement": "Whatever a handler answers successfully can be encoded and is delivered to the client. (Violated: the device name is served as a protobuf string without checking that it is valid UTF-8; for a unit whose name is not, GetBootInfo fails for ever, and with it the ping of the Python client.)", "quantifier": "every method, every reply of the unit, every schedule", "why_tests_cant": "all byte strings a unit may report as its name", "anchors": ["libcomfo/response_types.go:UnmarshalBinary", "comfoserver/protobuf.go:Protobuf", "rpc/comfo/comfo.twirp.go:serveGetBootInfoJSON", "python/comfo/client.py:ping"]}
{"id": "C62", "title": "Python client and server agree on the routes", "statement": "The request the Python client makes for a method is one the server routes to the handler of the same method and no other, as protobuf, whatever the body.", "quantifier": "every method, every body", "why_tests_cant": "two code bases generated separately", "anchors": ["python/comfo/comfo_twirp.py:ComfoClient", "rpc/comfo/comfo.twirp.go:ServeHTTP"]}
{"id": "C63", "title": "A query leaves no goroutine behind", "statement": "When a query has returned, none of the goroutines it started is left: nobody reads from the connection and nobody is blocked on its account. (Violated: each query that times out leaves exactly one goroutine behind for ever, first blocked in Read, and after it has swallowed a delimiter blocked sending on a channel nobody receives from. The number of goroutines left behind is exactly the number of timeouts so far.)", "quantifier": "every history of queries, arriving bytes, reads and timeouts", "why_tests_cant": "unbounded histories; the leak is invisible to any single call", "anchors": ["libcomfo/conn.go:ScanTimeout", "libcomfo/conn.go:ReadPacket", "libcomfo/conn.go:QueryPacket"]}
{"id": "C64", "title": "Bounded age of every cache under concurrency", "statement": "When one of the three timers has fired and the worker has dealt with it without a failed refresh, then every Get* request that arrives afterwards, for a cache that timer is responsible for (5 s: temperatures and fans; 5 min: fan profiles and bypass; 1 h: boot information and errors), answers with a value whose query began no earlier than 4.5 s before the timer fired, whatever other requests, flushes and refreshes run at the same time.", "quantifier": "for all timers and their caches, numbers of concurrent requests, interleavings, line behaviours and environment changes", "why_tests_cant": "Depends on the interleaving of the worker's refreshes with refreshes made by setters and flushes, and on time stamps never being overwritten by older ones in any schedule.", "anchors": ["comfoserver/timers.go:CacheWorker", "comfoserver/caches.go:Update", "comfoserver/caches.go:isStale"]}
{"id": "C65", "title": "A successful SetFanProfile means both fans of that mode are set to that percentage", "statement": "When SetFanProfile(mode m, x %) has succeeded, the unit has x % for the in-fan and for the out-fan of mode m, until the next fan-profile command. (Violated: only the in-percentage of the cached profile is compared, so an out-fan with another percentage is left as it is; and m and x are cut to 8 bits, so SetFanProfile(258, 276) reports 276 % and sets mode 2 to 20 %. Partial: when a modification is reported, a command with that percentage, cut to 8 bits, in both entries was written and confirmed, and the unit has these percentages until the next fan-profile command; when none is reported, the in-percentage in the cache was equal and nothing was sent.)", "quantifier": "for all arguments, units that carry out or lose commands, numbers of concurrent requests, interleavings and faults of the line", "why_tests_cant": "The effect on the unit has to hold at every later moment of every interleaving with other requests; the server's own answer does not show it.", "anchors": ["comfoserver/server.go:SetFanProfile", "libcomfo/api.go:SetFanProfile"]}
{"id": "C66", "title": "Read your own writes", "statement": "When SetFanSpeed, SetFanProfile or SetComfortTemp has reported a modification, every GetFanProfiles or GetTemps request that arrives afterwards answers with the new setting, unless another command for the same setting was written in between. (Violated: the error of the refresh after the command is dropped, and the old value is served. Partial: holds for every interleaving whenever the query of that refresh succeeded.)", "quantifier": "for all arguments, units that report the setting they have, numbers of concurrent requests, interleavings and faults of the line", "why_tests_cant": "Other requests and the worker may refresh the same cache at any time, with readings taken before or after the command; only an argument over all interleavings shows that none of them brings the old value back.", "anchors": ["comfoserver/server.go:SetFanSpeed", "comfoserver/server.go:SetFanProfile", "comfoserver/server.go:SetComfortTemp", "comfoserver/caches.go:Update"]}
{"id": "C67", "title": "The generated code of both languages is comfo.proto", "statement": "The file descriptors embedded in comfo.pb.go and comfo_pb2.py both parse, by the rules of the wire format, to the messages, fields, numbers, types and services written in comfo.proto; and every method takes and returns, in the Go handlers and in the Python client, the messages the service declares.", "quantifier": "for all messages, fields and methods of the file", "why_tests_cant": "A test that uses one language on both sides agrees with itself; the two descriptors are opaque byte strings that nobody reads.", "anchors": ["rpc/comfo/comfo.proto", "rpc/comfo/comfo.pb.go:fileDescriptor", "python/comfo/comfo_pb2.py:DESCRIPTOR", "python/comfo/comfo_twirp.py"]}
{"id": "C68", "title": "What the Python client asks for is what the server does, and what it answers is what the client returns", "statement": "The bytes the Python client sends for a method and its arguments make the server run exactly that method with exactly those arguments; the bytes of every successful answer decode, on the Python side, to the same values in the same fields (temperatures included), with the duration of a flush being the only value that becomes text. An answer can be encoded exactly when its strings are UTF-8.", "quantifier": "for all methods, all 32-bit arguments, and all successful answers in any interleaving of any number of requests", "why_tests_cant": "Zero values are left out on the wire, numbers have variable length, and temperatures are floats: the round trip has to hold for each of the 2^32 values of every field, not for examples.", "anchors": ["rpc/comfo/comfo.pb.go", "python/comfo/comfo_pb2.py", "python/comfo/client.py", "rpc/comfo/comfo.twirp.go", "comfoserver/protobuf.go"]}
{"id": "C69", "title": "Every request body is either one definite request or rejected", "statement": "A protobuf body of a request is either a sequence of well-formed fields, and then the handler runs with, for each argument, the last value given for it on the wire with the right wire type, cut to the width of the argument, zero when there is none, unknown fields being ignored (also groups, nested at most 10001 deep); or it is no such sequence, and then nothing is done and the answer is malformed. A body cannot be read in two ways.", "quantifier": "for all byte strings as bodies, all methods", "why_tests_cant": "Bodies come from the network and may be any bytes; the claim covers every malformed, truncated, repeated or overlong encoding.", "anchors": ["rpc/comfo/comfo.twirp.go", "rpc/comfo/comfo.pb.go"]}
{"id": "C70", "title": "A request that sets nothing changes nothing", "statement": "A request with an empty body does not change a setting of the unit. (Violated: proto3 cannot tell an absent number from zero, so an empty SetComfortTemp sets the comfort temperature to 0 °C, and an empty SetFanSpeed lowers the fan speed by one. Partial: for all other methods an empty body makes the server write nothing but requests for values and acknowledgements.)", "quantifier": "for all methods, interleavings with other requests, units and faults of the line", "why_tests_cant": "Tests send the fields they mean to send; that nothing is written concerns every interleaving and every behaviour of the unit.", "anchors": ["comfoserver/server.go:SetComfortTemp", "comfoserver/server.go:SetFanSpeed", "rpc/comfo/comfo.proto"]}
{"id": "C71", "title": "Only what a client asked for is commanded", "statement": "Everything the server ever writes to the unit is an acknowledgement, a request for a value (an empty frame of one of the get codes), or a frame belonging to a SetFanSpeed, SetComfortTemp or SetFanProfile request of a client that wrote it: a speed within the allowed levels, the temperature asked for, or the profiles with the percentage asked for in them. The cache worker and Get or FlushCache requests never write a command.", "quantifier": "for all numbers of concurrent requests, interleavings, units and faults of the line, at every moment", "why_tests_cant": "It is a statement about what is never written, in all interleavings and for all replies of the unit, including malformed ones.", "anchors": ["comfoserver/server.go", "comfoserver/caches.go", "libcomfo/api.go", "libcomfo/conn.go", "libcomfo/request_types.go"]}
{"id": "C72", "title": "The traffic caused on the line is bounded by the requests", "statement": "At every moment the number of frames other than acknowledgements that the server has written to the unit is at most two for every timer tick served plus, for every request received: none for a Get, one for flushing a single cache and six for all of them, two for SetComfortTemp, three for SetFanProfile and twelve for SetFanSpeed (one or two for the calls of the library). In particular reading never causes traffic, however many clients read.", "quantifier": "for all numbers of concurrent requests and ticks, interleavings, units and faults of the line, at every moment", "why_tests_cant": "It bounds the traffic for every failure of the unit and every interleaving: a retry loop that only shows when a refresh fails at the wrong moment would break it.", "anchors": ["comfoserver/timers.go:CacheWorker", "comfoserver/caches.go", "comfoserver/server.go", "libcomfo/api.go"]}
{"id": "C73", "title": "Nothing is served that the unit has never said", "statement": "Every value a Get request answers with stands in a reply that the unit has sent since the server was started. (Violated: when a query fails while the server starts, StartCaches goes on, and the zero value is served as if it had been read: 0 °C everywhere, no malfunctions; and asking for the next higher speed then sets speed 1, whatever the unit runs at. Partial: whenever the query for that cache succeeded while the server started.)", "quantifier": "for all units and faults of the line, numbers of concurrent requests and interleavings", "why_tests_cant": "It depends on which of the queries at start-up fails, and on every later interleaving of refreshes with requests.", "anchors": ["comfoserver/timers.go:StartCaches", "comfoserver/caches.go:UpdateCaches", "comfoserver/server.go:SetFanSpeed"]}
{"id": "C74", "title": "Concurrent changes of the fan speed lose no step", "statement": "SetFanSpeed requests that arrive at the same time act one after the other: a request that follows another one that has changed the speed starts from the speed that one has reported, so that of n requests to increase the speed that all report a modification each one counts, and the unit runs n levels higher afterwards. (Violated: the refresh after the command is not checked. When the unit carries out and confirms the first increase but fails to answer when it is read again, the next request starts from the old speed: both report to have increased the speed from 1 to 2. Partial: whenever the requests have read the unit again; the unit works and nobody uses its panel.)", "quantifier": "for all numbers of concurrent requests of every kind, interleavings, and units that carry out what they confirm", "why_tests_cant": "Lost updates show only in particular interleavings of several requests with each other and with the cache worker, and for the violation only when one particular reply gets lost.", "anchors": ["comfoserver/server.go:SetFanSpeed", "comfoserver/helpers.go:modifySpeed", "comfoserver/caches.go"]}
{"id": "C75", "title": "Set requests report what they replaced", "statement": "The original value in the answer of a successful SetFanProfile or SetComfortTemp is the value the request before it has set, and a request that finds its target already set reports no modification: the answers are those of the same requests carried out one after the other. (Violated: SetComfortTemp looks at the cached temperature before it takes the lock, so two simultaneous requests for 25 degrees both send the command and both report to have changed 21 to 25. Also violated without concurrency when the unit fails to answer the refresh after a command: the next request reports the value before that, and may skip its command although the unit has another value. Partial: SetFanProfile in every interleaving, SetComfortTemp when it arrives after the earlier request was answered, provided the earlier request has read the unit again and nobody has sent another command in between.)", "quantifier": "for all modes, percentages and temperatures, interleavings with requests of every kind, and units that carry out what they confirm", "why_tests_cant": "The wrong answers need one request to look at the cache while another one is between its own look and its refresh, or one particular reply to get lost.", "anchors": ["comfoserver/server.go:SetFanProfile", "comfoserver/server.go:SetComfortTemp", "comfoserver/caches.go"]}
{"id": "C76", "title": "The settings are those of the command line, then the environment, then the defaults", "statement": "For each of debug, mode, target and listen the program uses the last value given for it on the command line (--name=value or --name value, --debug alone meaning yes, up to a --), else the variable COMFO_<NAME> unless it is empty, else the documented default; it connects to the unit and listens accordingly, and no other environment variable has any effect. Every other command line (an unknown flag, a missing value, a value of --debug that is neither yes nor no, a short flag, --help) ends the program before any device or address is touched.", "quantifier": "for all command lines, environments and behaviours of the network and the serial devices", "why_tests_cant": "There are infinitely many command lines; values that look like flags, contain = or follow -- and repeated flags are easily forgotten.", "anchors": ["config.go:init", "comfo.go:main", "comfo.go:ConnectUnit"]}
{"id": "C77", "title": "The device named in the service file is the one that is opened", "statement": "The server started by systemd/comfo.service opens the serial device that the service file names in its environment. (Violated: the service file sets COMFO_USB_DEVICE, but the program reads COMFO_TARGET; whatever device is written there, /dev/ttyUSB0 is opened. The variable is right for comfo-socat@.service, which passes it to socat. Partial: a device in COMFO_TARGET is opened.)", "quantifier": "for all device names", "why_tests_cant": "The default of the program is the same as the value in the service file, so that everything works until somebody edits it.", "anchors": ["systemd/comfo.service", "config.go", "comfo.go:main"]}
{"id": "C78", "title": "What a Go client asks for is what the server does, and what it answers is what the client returns", "statement": "A call of the protobuf or the JSON client makes exactly one request, to the server of the base URL; the server runs exactly the handler of that method with exactly the arguments of the call; and the client returns every field of the handler's answer, including the time taken. This holds for base URLs without a path. With a path, even a single slash at the end, no call has any effect at the server and every call returns an error.", "quantifier": "for all ten methods, arguments, base URLs, both formats, all answers and all interleavings of the server (JSON libraries: any that decode what they have encoded)", "why_tests_cant": "Ten methods times two formats times all arguments and answers; generated code pairs the methods with URLs by position in two separate lists.", "anchors": ["rpc/comfo/comfo.twirp.go:NewComfoProtobufClient", "rpc/comfo/comfo.twirp.go:NewComfoJSONClient", "rpc/comfo/comfo.twirp.go:doProtobufRequest", "rpc/comfo/comfo.twirp.go:doJSONRequest", "rpc/comfo/comfo.twirp.go:baseServicePath"]}
{"id": "C79", "title": "Errors reach the client as what they are, and no failure looks like success", "statement": "An error of a handler is returned by the Go client with the same code (invalid_argument or internal), text and name of the argument, and its HTTP status is the documented one. Requests that reach no handler, cannot be decoded, or whose answer cannot be encoded return bad_route, malformed and internal, with the documented statuses 404, 400 and 500. Responses that are not from a Twirp server become errors with the documented codes and what came in the metadata. A call returns without error only if a response with status 200 and a decodable body came and the context was never done, and the server makes such responses only from successful answers, which the body encodes.", "quantifier": "for all calls, answers, errors (texts in UTF-8 up to a megabyte), responses of intermediaries and behaviours of the network", "why_tests_cant": "Every error takes another way through two encoders, a table of codes and a table of statuses; tests look at a few.", "anchors": ["rpc/comfo/comfo.twirp.go:writeError", "rpc/comfo/comfo.twirp.go:marshalErrorToJSON", "rpc/comfo/comfo.twirp.go:errorFromResponse", "rpc/comfo/comfo.twirp.go:twirpErrorFromIntermediary", "comfoserver/server.go"]}
{"id": "C80", "title": "The reported ReqTime is true", "statement": "The ReqTime in the answers of SetComfortTemp, SetFanSpeed, SetFanProfile and FlushCache is never negative, never more than the time between the arrival of the request and its end, and at least the sum of all pauses and timeouts the request itself went through. The text in the answer is that of exactly this duration. Every request, whatever its answer, takes at least as long as its pauses and timeouts together.", "quantifier": "for all requests, units, numbers of concurrent requests, interleavings and speeds of the clock", "why_tests_cant": "Tests cannot vary how the clock runs between any two statements of concurrent requests.", "anchors": ["comfoserver/server.go:SetComfortTemp", "comfoserver/server.go:SetFanSpeed", "comfoserver/server.go:SetFanProfile", "comfoserver/server.go:FlushCache"]}
{"id": "C81", "title": "Flushing all caches of a silent unit outlasts the write timeout", "statement": "A FlushCache request that arrives when the unit has stopped answering is answered no sooner than one second per cache after its arrival (with success, C47) and reports a ReqTime of at least that. For all caches this is six seconds, more than the HTTP server's WriteTimeout of five, so the answer never reaches the client.", "quantifier": "for all executions, numbers of concurrent requests and interleavings in which the unit does not answer from the arrival of the request on", "why_tests_cant": "It is about all interleavings with the timers and other requests, and needs real time to pass.", "anchors": ["comfoserver/server.go:FlushCache", "comfoserver/caches.go:UpdateCaches", "libcomfo/conn.go:QueryPacket", "comfo.go:main"]}
{"id": "C82", "title": "A slow unit delays only requests for the data being refreshed", "statement": "Between taking the lock of a cache and giving it back a goroutine touches no other cache, takes no lock but that of the line, does not sleep and uses no channel, and it makes at most one query of the unit, for the value of that cache; a goroutine that takes the lock shared only reads the cache. A Get request that cannot go on therefore waits for someone within the lock of its own cache, who can go on or waits for one query on the line that can go on; requests for other caches are not held up.", "quantifier": "for all executions, units, numbers of concurrent requests and interleavings", "why_tests_cant": "It is about what every goroutine may do while it holds a lock, in all interleavings.", "anchors": ["comfoserver/caches.go:Update", "comfoserver/caches.go:UpdatePoll", "comfoserver/protobuf.go:Protobuf", "libcomfo/conn.go:QueryPacket"]}
{"id": "C83", "title": "The cause of a failed request can be told from its error", "statement": "The errors two clients get for requests that failed at a handler have the same code and text if and only if the handlers failed for the same reason (which argument was refused and why, with which value, or which of the failures of the exchange with the unit). In every interleaving, a request is refused for such a reason if and only if the reason holds of its arguments, read modulo 256 as the server does, and of the mode it found in the cache.", "quantifier": "for all pairs of requests and answers, both formats, all base URLs without a path, all error texts of the connection that are not texts of the program; all reachable states", "why_tests_cant": "It is about all pairs of failures.", "anchors": ["libcomfo/errors.go", "comfoserver/errors.go", "comfoserver/helpers.go:modifySpeed", "comfoserver/server.go", "rpc/comfo/comfo.twirp.go:writeError"]}
{"id": "C84", "title": "A refused speed is quoted as it was asked for", "statement": "When SetFanSpeed refuses a speed as out of range, the value quoted in the error is the speed the request asked for: Abs, or one more or one less than the mode in the cache.", "quantifier": "for all requests, executions and interleavings", "why_tests_cant": "There are 2^32 values of Abs, and the mode depends on what other requests did before.", "anchors": ["comfoserver/helpers.go:modifySpeed"]}
{"id": "C85", "title": "A request fails exactly if its own exchange with the unit failed", "statement": "The requests to change a setting fail, apart from refused arguments, exactly if something went wrong in their own exchange with the unit, and with the error of that exchange. If the exchange of the command of SetFanSpeed or SetComfortTemp fails, the request fails with its error and nothing more is exchanged; if it succeeds, SetComfortTemp reports a modification, and SetFanSpeed does if and only if afterwards it saw the fans at the percentages of the new speed. SetFanProfile asks the unit for the profiles first: if that exchange fails, or the reply makes no sense, the request fails, in the former case with its error, and nothing more is exchanged; otherwise it sends exactly the profiles that came with the percentage of the mode replaced, and fails if and only if this exchange fails. If everything goes well on the line during a request, it fails only if its arguments are refused, if the comfort temperature is above 107, or if the fans did not reach the new speed. Asking for values and FlushCache never fail. The set calls of the library return exactly the outcome of the exchange of their command.", "quantifier": "for all requests, states of the caches, behaviours of the unit and interleavings", "why_tests_cant": "A failure may come at any point of any exchange, with other requests and the background in between; tests try a few.", "anchors": ["comfoserver/server.go:SetFanSpeed", "comfoserver/server.go:SetFanProfile", "comfoserver/server.go:SetComfortTemp", "libcomfo/api.go:SetFanProfile", "libcomfo/message.go:setQuery"]}
{"id": "C86", "title": "A query is over one second after its request is written", "statement": "QueryPacket ends at most one second after its request is written, or as much later as writing the ACK takes, however the unit dribbles its bytes; it ends in the moment the request is written, something arrives, or the second is over. It reports a timeout exactly when the second is over. Only what arrives within the second counts: the outcome and the bytes sent are those of a query that finds just these bytes. So a receivable reply that is complete within the second is returned and acknowledged, and one of which the last byte is missing is a timeout. It follows that a request never spends more than a fixed time waiting for the unit and pausing: nothing for reads and FlushCache, 2 s for SetComfortTemp, 3 s for SetFanProfile, 16.5 s for SetFanSpeed.", "quantifier": "for all packets, times of arrival, cuttings of the bytes, durations of the writes; for the requests, all interleavings", "why_tests_cant": "Tests answer at once; the times at which the pieces of a reply arrive are a continuum, and a timer restarted with every delimiter passes them all.", "anchors": ["libcomfo/conn.go:QueryPacket", "libcomfo/conn.go:ReadPacket", "libcomfo/conn.go:ScanTimeout", "libcomfo/conn.go:WaitTimeout"]}
{"id": "C87", "title": "Every method of the Python client is one request, in both variants", "statement": "Each of the twelve methods of the Python client makes exactly the one remote call it is named after, with its arguments unchanged, or raises the exception for invalid arguments without any call; it makes no second call, whatever the answer. It returns what the answer contains (ping: True; setters: Modified, where a refused step up or down is False; getters: every field under its own name) and raises the server's error or the lack of an answer otherwise. Its async_ variant does exactly the same on a client with an event loop; on a client without one it raises AttributeError and makes no call.", "quantifier": "for all methods, arguments, answers and states of the network", "why_tests_cant": "There are no tests of the Python client, and a variant that calls the wrong method or drops an argument shows only with the right answer.", "anchors": ["python/comfo/client.py:Comfo", "python/comfo/types.py"]}
{"id": "C88", "title": "The cache worker does what timers and flushes ask for, and nothing else", "statement": "Whenever the worker waits, everything it has done so far is a sequence of complete jobs. After a timer it looks at exactly the two caches of that timer, in order; a cache read at most 4.5 s ago costs no traffic and stays as it is, an older one is refreshed with one query, whose answer is stored if it is good. For a flush request it refreshes exactly the caches asked for and then answers. Whenever it does not wait, what it does is the beginning of one more such job. The flush jobs are the requests handed to it, each once and in the order in which they were handed over.", "quantifier": "for all interleavings of requests, timers and flushes, all lines and units", "why_tests_cant": "There are no tests of the worker; needless queries, a forgotten cache or a flush done twice show only in the traffic over time.", "anchors": ["comfoserver/timers.go:CacheWorker", "comfoserver/caches.go:FlushCaches", "comfoserver/caches.go:isStale"]}
{"id": "C89", "title": "JSON bodies mean what their text says", "statement": "A JSON request runs a handler exactly if its body begins with a JSON object (RFC 8259, UTF-8, at most 10000 levels) that gives the fields of the method's message as comfo.proto names and types them: numbers below 2^32 (also as strings or with exponents), booleans, caches by name or number; members that are missing or null count as zero, unknown ones are ignored, however deeply nested. Then it runs exactly the call these values stand for, and this call is unique; any other body is refused as malformed without any effect. A field given twice, a negative or too large number, and text that is not UTF-8 are refused. A successful answer is sent as one JSON object with all fields of the message, in order, under their names, with the values of the answer; an error as an object with its code, its text and its metadata (each key once; left out if there is none). A Go client reads that same answer, or that same error, from every text of such an object, whatever its white space, escapes and ways to write numbers. With this, what a caller of the Go JSON client gets is the handler's answer (C78) or error (C79) without further assumptions.", "quantifier": "for all bodies (sequences of bytes), methods, answers and errors; for C78_json all interleavings", "why_tests_cant": "There are no tests of JSON requests; the texts that mean the same are infinitely many, and so are those that must be refused.", "anchors": ["rpc/comfo/comfo.twirp.go:serveSetFanSpeedJSON", "rpc/comfo/comfo.twirp.go:doJSONRequest", "rpc/comfo/comfo.twirp.go:marshalErrorToJSON", "rpc/comfo/comfo.proto"]}
{"id": "C90", "title": "A JSON flush is for the cache it names, or refused", "statement": "A JSON request to FlushCache that gives the cache by its name flushes the cache of exactly that name; if no cache has that name it is refused, and nothing is flushed.", "quantifier": "for all request bodies", "why_tests_cant": "The name is any string; a misspelled name is answered with success like a right one.", "anchors": ["rpc/comfo/comfo.twirp.go:serveFlushCacheJSON", "comfoserver/server.go:FlushCache", "rpc/comfo/comfo.proto:CacheType"]}
{"id": "C91", "title": "What the result of a call in Python says about the unit", "statement": "When a method of the Python client that changes a setting (set_fan_speed, increase_fan_speed, decrease_fan_speed, set_comfort_temperature, configure_fan_profile, in both variants) returns True, the unit was sent the command for exactly the value of the argument (for a step: one more or one less than the speed in the cache), has confirmed it, and is set to it until somebody sends the next command for that setting. When it returns False, nothing was sent to the unit on its behalf, and the cache already had the value asked for (for a step: there is no such speed).", "quantifier": "for all units that work (a command is carried out or lost, and confirmed only if carried out), all arguments, any number of other requests, all interleavings, and all networks that deliver the server's answers or nothing", "why_tests_cant": "The claim spans client, server, cache and unit under all interleavings of other clients.", "anchors": ["python/comfo/client.py:set_fan_speed", "python/comfo/client.py:increase_fan_speed", "python/comfo/client.py:set_comfort_temperature", "python/comfo/client.py:configure_fan_profile", "comfoserver/server.go:SetFanSpeed", "libcomfo/api.go:SetSpeed"]}
{"id": "C92", "title": "The log cannot be forged", "statement": "A request below the prefix of the service leaves exactly one record in the log, of level debug, with its method, its URI and the time it took; other requests (redirects, 404) leave none, and logging changes nothing about what is done and answered. What is written to the log, read as lines of keys and values with Go's quoting, is exactly the list of the records to be logged, in order: whatever bytes a method, URI or error text contains (quotes, line feeds, =, bytes that are not UTF-8), one record is one line and none of it can be read as another attribute or record. Debug records are written only if debugging was asked for.", "quantifier": "all records, byte strings, durations, levels, sequences of records; any tables of printable characters", "why_tests_cant": "The round trip has to hold for all byte strings a client may send.", "anchors": ["logger.go:Logger", "routes.go:NewRouter", "comfo.go:main"]}
{"id": "C93", "title": "A refresh is logged if and only if it failed", "statement": "An update of a cache that does not ask the unit, and one that stores what the unit sent, log nothing. One that asks and does not store anything logs exactly one record of level error, whose message begins with the name of that cache and of no other, and whose attribute is the text of the error (the one the query failed with, if it was the query that failed). So the log tells for every refresh in every interleaving whether it succeeded.", "quantifier": "all caches, forced or not, all replies and failures of the connection, every interleaving (all paths of the program)", "why_tests_cant": "All points at which a query can fail, for all six caches, and all replies.", "anchors": ["comfoserver/caches.go:BootInfoCache.Update", "comfoserver/caches.go:TempCache.Update", "comfoserver/caches.go:ErrorsCache.Update"]}
{"id": "C94", "title": "The ranges that errors name are the ranges that hold", "statement": "When SetFanProfile is refused because of an argument, the error names that argument and a range. The value given is outside that range, and no request, by anyone at any time, with a value for that argument within the range is refused because of it. When SetComfortTemp is refused because its argument is too large, every larger value is refused in the same way.", "quantifier": "all arguments (32 bit), every interleaving, any two requests of any two runs", "why_tests_cant": "The text of the error is compared with what the server accepts for all values; a test compares it with one.", "anchors": ["comfoserver/server.go:SetFanProfile", "comfoserver/server.go:SetComfortTemp"]}
{"id": "C95", "title": "What the program does when it starts, and what it says about it", "statement": "If the unit cannot be connected to, or the mode is none of the two, the program exits with 1 without listening and without doing anything to the unit, and the only error in the log is its last record, whose text contains the target, or the mode. Otherwise it asks the unit for the values of all six caches, one after another, before it listens, at the address of the settings. The log names the unit and the address, and between its messages on populating the caches there is exactly one error for each value that could not be got, in order, naming the cache. If a cache is not named there, whatever Get requests for it answer from then on, in every interleaving, was said by the unit; if it is, the unit has said nothing that could be served. The exit status is 2 for unknown flags, with nothing logged; 1 if the unit could not be connected to or listening has ended with an error, and then the last record is an error with its text; and 0 only if listening has ended without one. The first five lines of the output are the version, the others are the log.", "quantifier": "all command lines, environments, outcomes of connecting, behaviours of the unit, interleavings afterwards", "why_tests_cant": "All failures of the line at startup, combined with all later interleavings.", "anchors": ["comfo.go:main", "comfo.go:ConnectUnit", "comfoserver/timers.go:StartCaches", "comfoserver/caches.go:UpdateCaches"]}
{"id": "C96", "title": "What a getter returns in Python is what the unit sent", "statement": "Whatever a getter of the Python client returns, in the plain or the asynchronous variant: if the log of the start of the server reports no failure for the value in question, then the bytes the unit has sent over the connection contain a whole reply of the right kind, with the right length and checksum, and every field of the result is what the byte at its place in that reply says, in the unit of the field (degrees, percent, revolutions per minute modulo 65536, flags, text without white space around it). Without a look at the log, the only other possibility is the result with all fields zero.", "quantifier": "all scripts of the connection (bytes in any pieces, stalls, failures, partial writes), all other requests, every interleaving, all getters in both variants", "why_tests_cant": "Relates the object in Python to bytes on the wire through decoding, cache, handler and message at once, for all bytes and all schedules.", "anchors": ["python/comfo/client.py:Comfo", "python/comfo/types.py", "comfoserver/caches.go", "libcomfo/types.go"]}
{"id": "C97", "title": "The log of the running server tells all refreshes that failed", "statement": "For every request, when it is answered, and for the worker, whenever it waits: the records logged are determined by what was done, and account for it. Each refresh of a cache that was begun is one exchange with the unit; either its result was stored, stamped with the time of the refresh, and nothing was logged, or nothing was stored and there is exactly one record of level error, which names the cache and gives the error; the records are in the order of the refreshes. Nothing else is logged and nothing else is stored. In particular FlushCache, which reports success even when the refresh failed, leaves such a record, and a request that refreshes nothing logs nothing, even when it is answered with an error.", "quantifier": "all requests, timers and interleavings, all states and behaviours of the unit and of the connection", "why_tests_cant": "The failures that a client is never told about are to be found in the log; whether it has all of them and no others depends on every path through every handler under every schedule.", "anchors": ["comfoserver/caches.go:Update", "comfoserver/caches.go:FlushCaches", "comfoserver/timers.go:CacheWorker", "comfoserver/server.go:SetFanSpeed"]}
{"id": "C98", "title": "The text of a packet tells the packet", "statement": "The debug text of a packet (Packet.String) can be read back: it determines the command, every byte of the data and whether a reply is expected. So packets that are printed alike are equal.", "quantifier": "all packets, with data of any length", "why_tests_cant": "Holds for every command and all data; the text of a command has no fixed length and the text of the data no escapes, so that two packets printed alike are not excluded by any finite number of samples.", "anchors": ["libcomfo/proto.go:String"]}
{"id": "C99", "title": "What Python prints for a result shows the result", "statement": "The text that repr gives for the objects that the getters of the Python client return is a Python dictionary with one entry for each field of the message received from the server, under its name, in order and with its value, on one line if it has at most 80 characters and else with one entry to a line. The value can be read back from the text, also a device name with quotes, backslashes, line ends or characters that cannot be printed. A device name as the unit can report it is never broken up.", "quantifier": "all messages of the server (temperatures below 10^16 degrees), all tables of printable characters", "why_tests_cant": "All values of all fields at once and all texts as a device name, with the change of quotes, the escapes and the change to several lines.", "anchors": ["python/comfo/types.py:ComfoMessage"]}
{"id": "C100", "title": "The server recovers from an outage of the unit", "statement": "When the unit has been silent for some time, so that reads on the connection timed out, and then answers everything it is asked again, the server hears it again: of the reads that all requests and the background refresh make from then on, no more fail than had timed out before. In particular refreshes bring new values to the caches again and commands are confirmed again.", "quantifier": "all units that answer with valid acknowledgements and replies, in one piece or in two, or are silent, with any internal state; all requests and interleavings; all moments of an execution", "why_tests_cant": "The reader of a query that timed out is still there and takes bytes meant for later queries. Whether the server gets out of that depends on the history of timeouts of all goroutines and on all that follows.", "anchors": ["libcomfo/conn.go:ScanTimeout", "libcomfo/conn.go:ReadPacket", "libcomfo/conn.go:QueryPacket", "comfoserver/caches.go:Update"]}
{"id": "C101", "title": "Every request is answered, however many others come", "statement": "While requests and timer ticks keep coming, without end and at any rate, every request that has arrived is answered some time, the cache worker gets back to its select again and again, so that refreshes do not cease, and nobody keeps a lock for ever. All that is needed is that Go's run-time is fair: the scheduler does not forget a goroutine that can go on, a mutex that is given back by everyone is got by everyone who waits for it, and select does not pass over a sender for ever. Nothing less would do.", "quantifier": "all infinite executions that are fair, from any moment of the life of the server on; all units, requests, rates and interleavings", "why_tests_cant": "Starvation shows in infinite executions only.", "anchors": ["comfoserver/server.go", "comfoserver/caches.go:Update", "comfoserver/timers.go:CacheWorker", "libcomfo/conn.go:QueryPacket", "libcomfo/api.go:SetFanProfile"]}
{"id": "C102", "title": "A closed connection is not mistaken for the unit", "statement": "Once the connection to the unit is closed or broken, so that every read finds the end of the stream or an error, no request that arrives later reports that it has changed anything at the unit. (Violated: SetComfortTemp reports success, every time, if its write is still accepted, as it is by a TCP connection that only the other end has closed; SetFanSpeed does so if the fans were last seen at the percentages of the new speed. SetFanProfile never does, and nothing does if writes fail too. Get requests keep answering with the values of before, without error.)", "quantifier": "all connections that are closed at some moment of an execution, whatever they do with writes and whatever the timer does; all requests, caches and interleavings", "why_tests_cant": "needs the connection to be closed at every moment, and all requests after it", "anchors": ["libcomfo/conn.go:ScanTimeout", "libcomfo/conn.go:ReadPacket", "comfoserver/server.go:SetComfortTemp", "comfoserver/server.go:SetFanSpeed", "comfoserver/server.go:SetFanProfile", "comfoserver/caches.go:UpdatePoll"]}
{"id": "C103", "title": "What a Go client's call returns is what the unit sent or was told", "statement": "Whatever a call of a Go client, protobuf or JSON, returns without error. For a getter: if the log of the start of the server reports no failure for the value in question, then the bytes the unit has sent over the connection contain a whole reply of the right kind, with the right length and checksum, and every field of the struct is what the byte at its place in that reply says, in the unit of the field; without a look at the log, the only other possibility is that all fields are zero. For SetFanSpeed, SetComfortTemp and SetFanProfile: if Modified is set, the unit was told the target of the answer, which is what was asked for (for speeds and percentages modulo 256), has confirmed it, and is set to it until somebody sends another such command; if it is not set, the server has sent nothing, and the target is what it found in its cache.", "quantifier": "all scripts of the connection (getters), all units that carry out and confirm commands (setters), all networks that relay the responses of the server or lose them, both formats, all arguments, all other requests, every interleaving", "why_tests_cant": "Relates the struct in Go to bytes on the wire through decoding, cache, handler, encoding, response and decoding again, for all bytes and all schedules.", "anchors": ["rpc/comfo/comfo.twirp.go:doProtobufRequest", "rpc/comfo/comfo.twirp.go:doJSONRequest", "rpc/comfo/comfo.pb.go", "comfoserver/server.go", "comfoserver/caches.go", "libcomfo/types.go"]}
{"id": "C104", "title": "A set request that is repeated does nothing", "statement": "SetFanSpeed with a speed, SetFanProfile or SetComfortTemp has reported a modification, and the unit has answered when the server read it again after the command. Then the same request made again, later, by anybody, sends nothing to the unit, succeeds and reports no modification, with the value of the first as its original (speed, temperature) and target value; unless another request than itself has sent a command of the same kind since the first was confirmed. This holds whatever else goes on in between: other requests, refreshes of the same cache that succeed, fail or have been under way since before the command.", "quantifier": "all units that report the setting they have, all arguments, numbers of concurrent requests and ticks, interleavings and faults of the line", "why_tests_cant": "The set requests look at the cache without taking its lock; that a refresh begun before the command cannot bring the old value back, or be seen half done, is a matter of all interleavings.", "anchors": ["comfoserver/server.go:SetFanSpeed", "comfoserver/server.go:SetFanProfile", "comfoserver/server.go:SetComfortTemp", "comfoserver/caches.go:Update", "comfoserver/helpers.go:modifySpeed"]}
{"id": "C105", "title": "Three goroutines at most use the line, whatever the number of requests", "statement": "Of the requests to the server only those that change a setting ever talk to the unit or wait to do so, and of these at most one that sets a fan speed or fan profile and at most one that sets the comfort temperature at a time; reads and FlushCache never do, the cache worker does it for them. So, with the worker, at most three goroutines use the serial line or wait for it, however many requests there are. One that waits for it therefore waits for at most two exchanges of others, or one besides the one under way, provided that those who come later do not overtake it.", "quantifier": "all lines and units, arguments, numbers of concurrent requests and ticks, interleavings", "why_tests_cant": "A bound on the number of goroutines at one place is about all reachable states, with any number of requests.", "anchors": ["comfoserver/server.go:SetFanSpeed", "comfoserver/server.go:SetFanProfile", "comfoserver/server.go:SetComfortTemp", "comfoserver/timers.go:CacheWorker", "comfoserver/protobuf.go", "libcomfo/conn.go:QueryPacket"]}
{"id": "C106", "title": "Reads are answered within seconds even when the unit is silent", "statement": "A Get request waits only for those who use its cache before it. At any time at most two goroutines refresh a cache or wait to do so: the cache worker, and one request that changes a value kept in it; for the boot information, the bypass and the errors it is the worker alone. Each holds the lock for at most three seconds: its own query of the unit, and two exchanges of others it waits for. While the other of the two waits for the lock it does not use the line, so then it is two seconds. So a Get request is answered no later than five seconds after its arrival, and three for these three, plus a small multiple of the time a goroutine may have to wait for the processor; other Get requests before it do not add more than that. If no request that changes a value of the cache is under way when it arrives, it is answered within the HTTP server's WriteTimeout of five seconds, whatever the unit does.", "quantifier": "all executions in which a goroutine that can go on does so within a time d and a mutex is given to those who wait for it in the order they came; all units, arguments, numbers of concurrent requests and ticks, interleavings, d", "why_tests_cant": "An upper bound on the response time is about the worst of all interleavings of any number of requests with the timers and a unit that answers late or not at all.", "anchors": ["comfoserver/protobuf.go", "comfoserver/caches.go:Update", "comfoserver/caches.go:UpdatePoll", "comfoserver/timers.go:CacheWorker", "comfoserver/server.go:SetFanSpeed", "comfoserver/server.go:SetFanProfile", "comfoserver/server.go:SetComfortTemp", "libcomfo/conn.go:QueryPacket", "comfo.go:main"]}
{"id": "C107", "title": "Changes are answered within a known time even when the unit is silent", "statement": "A request that changes a setting (SetComfortTemp, SetFanProfile, SetFanSpeed) is answered within a known time, whatever the unit does. If no other request of its kind is under way (of its kind are those for the fans and those for the comfort temperature), it takes at most 8 s (SetComfortTemp), 11 s (SetFanProfile) or 65 s (SetFanSpeed, which polls the unit up to ten times), plus a small multiple of the time a goroutine may have to wait for the processor, times the number of Get requests for the same cache at a time. If there are others of its kind, it is answered at the latest after the sum of these times over all those under way: they are served one after the other, and nobody waits for more than that.", "quantifier": "all executions in which a goroutine that can go on does so within a time d and a mutex is given to those who wait for it in the order they came; all units, arguments, numbers of concurrent requests and ticks, interleavings, d", "why_tests_cant": "An upper bound on the response time is about the worst of all interleavings of any number of requests with the timers and a unit that answers late or not at all; a test sees some of them.", "anchors": ["comfoserver/server.go:SetFanSpeed", "comfoserver/server.go:SetFanProfile", "comfoserver/server.go:SetComfortTemp", "comfoserver/caches.go:Update", "comfoserver/caches.go:UpdatePoll", "comfoserver/timers.go:CacheWorker", "libcomfo/api.go:SetFanProfile", "libcomfo/conn.go:QueryPacket"]}
{"id": "C108", "title": "The cache worker is never busy for long, and a flush waits for it only", "statement": "Whatever the cache worker takes up is done within a known time, whatever the unit does: 5 s for each of the temperatures, fans and fan profiles it refreshes, 3 s for each of the boot information, bypass and errors, that is 10 s, 8 s and 6 s for the three timers and 24 s for a flush of all caches, plus a small multiple of the time a goroutine may have to wait for the processor. A FlushCache request is answered at the latest when the worker has finished what it was at when the request arrived and the jobs it has taken up since, the last of which is the request itself; time passes for nothing else. If the worker takes up at most j other jobs before, that is (j + 2) * 24 s.", "quantifier": "all executions in which a goroutine that can go on does so within a time d, the worker and who waits for its answer meet within d, and a mutex is given to those who wait for it in the order they came; all units, caches to flush, numbers of concurrent requests and ticks, interleavings, choices of select, d", "why_tests_cant": "The worst case needs the worker to meet requests that change settings at every cache and at the line while the unit times out every time, in one of very many interleavings, and depends on the choices select makes.", "anchors": ["comfoserver/timers.go:CacheWorker", "comfoserver/server.go:FlushCache", "comfoserver/caches.go:FlushCaches", "comfoserver/caches.go:UpdateCaches", "comfoserver/caches.go:Update", "libcomfo/conn.go:QueryPacket"]}
{"id": "C109", "title": "A read is answered before the write timeout whatever else is under way", "statement": "Every Get request is answered within 5 s of its arrival, the write timeout of the HTTP server after which the answer does not reach the client, whatever the unit does and whatever other requests are under way, if goroutines are scheduled without delay and locks are given to those who have waited longest. (Violated: the temperatures, fans and fan profiles are refreshed by the cache worker and by requests that change them; a read that arrives when both are about to do so waits for both, and for up to three exchanges of others with the unit, each of which can last 1 s. What holds: a read can be late only for these three, only if a request that changes them is under way when it arrives, and by no more than the time for scheduling.)", "quantifier": "all executions in which a goroutine that can go on does so within a time d, and a mutex is given to those who wait for it in the order they came; all units, numbers of concurrent requests and ticks, interleavings, d", "why_tests_cant": "It takes one of very many interleavings of three requests and the cache worker, with a unit that answers slowly each time.", "anchors": ["comfoserver/server.go:GetTemps", "comfoserver/caches.go:Update", "comfoserver/timers.go:CacheWorker", "comfoserver/server.go:SetComfortTemp", "libcomfo/conn.go:QueryPacket", "comfo.go:main"]}
{"id": "C110", "title": "How old a value can be when it is served", "statement": "At any time after the start-up the cache worker has, not long ago, taken a tick of each timer and dealt with it: no longer ago than the period of the timer, the time the worker takes for what it is at and for the jobs select lets it do first, and the time for the tick itself. So if no refresh has failed since then, whoever asks gets a value that was read from the unit at most so long before the request arrived, and 4.5 s. For the temperatures and fans this is 19.5 s and 10 s for each of these jobs if nobody flushes caches (24 s otherwise), plus a small multiple of the time a goroutine may have to wait for the processor; as long as the unit may take to answer, and whatever other requests there are.", "quantifier": "all executions in which a goroutine that can go on does so within a time d, the worker and who waits for its answer meet within d, a mutex is given to those who wait for it in the order they came, and a ticker that is due is passed over at most j times; all units, timers, caches, numbers of concurrent requests, interleavings, d, j", "why_tests_cant": "Tests see the delays of one run. The bound is about the worst case of waits for the line, the caches and the worker, with requests and timers arriving at the worst moments for minutes.", "anchors": ["comfoserver/timers.go:CacheWorker", "comfoserver/timers.go:StartCaches", "comfoserver/caches.go:Update", "comfoserver/caches.go:isStale", "comfoserver/server.go:GetTemps", "libcomfo/conn.go:QueryPacket"]}
{"id": "C111", "title": "What the unit shows is what clients see, soon", "statement": "When a value changes at the unit, by hand or by itself, and the unit works from then on, then every client that asks for it after a known time gets the new value (or, if only a part of the value stays as it is since the change, a value with that part), whatever was in the caches before, however many requests fail or succeed in between and whatever other goroutines do. The known time is that of C110: for the temperatures and fans 19.5 s and 10 s for each job the worker is at or does first (24 s if caches are flushed), for the other caches the period of their timer instead of 5 s. The getters of the Python client and of Go clients return, field for field, what the bytes of the unit's new reply stand for. No condition is put on refreshes: that those after the change succeed follows.", "quantifier": "all executions as in C110; all units, caches, values, moments of the change, states of the caches at that moment, requests under way or made later", "why_tests_cant": "A test changes one value and waits. That the old value cannot come back (by a refresh that was under way at the change, by a failed refresh, by a request that fills the cache late) is about all interleavings with the change.", "anchors": ["comfoserver/timers.go:CacheWorker", "comfoserver/caches.go:Update", "comfoserver/caches.go:isStale", "comfoserver/server.go:GetTemps", "libcomfo/conn.go:QueryPacket"]}
{"id": "C112", "title": "A setting that was changed is what everybody sees, soon", "statement": "SetFanSpeed, SetFanProfile or SetComfortTemp has reported a modification, and the unit works from then on or from any later moment on. Then every GetFanProfiles or GetTemps request that is made after a known time answers with the new setting (the reported speed, the percentage for both fans of that mode, the comfort temperature), unless another command for the same setting was written in between. This holds also if the server has failed to read the unit again after the command, where C66 is violated, and whatever refreshes were under way at the command. The known time is that of C111. The same in terms of the Python client: after set_fan_speed(m), configure_fan_profile(m, d) or set_comfort_temperature(t) has returned True, what get_fan_profiles() or get_temps() of any client returns, in both variants, has the mode m, d percent for both fans in mode m, or the comfort temperature t; after increase_fan_speed() or decrease_fan_speed(), a mode one higher or lower than the one the request saw in the cache. And in terms of Go clients, JSON or protobuf: after a struct with Modified was returned, the fields of the struct that is read later are the setting.", "quantifier": "all executions as in C110; all units that report the setting they have, arguments, requests of others, moments from which the unit works", "why_tests_cant": "It is about all interleavings of the request with the cache worker and with other requests, and about faults of the line at any moment before.", "anchors": ["comfoserver/server.go:SetFanSpeed", "comfoserver/server.go:SetFanProfile", "comfoserver/server.go:SetComfortTemp", "comfoserver/timers.go:CacheWorker", "comfoserver/caches.go:Update", "comfoserver/caches.go:isStale", "python/comfo/client.py:set_comfort_temperature"]}
{"id": "C113", "title": "What WaitTimeout, WritePacket and WriteAck return is what happened", "statement": "The booleans of the exported functions of the connection say whether they succeeded: WritePacket and WriteAck return true exactly if all their bytes were written, WaitTimeout exactly if the channel reads before the timer expires. (Violated: WriteAck never returns true, WaitTimeout returns what the channel yields, and WritePacket returns true for a writer that takes a part of the frame without an error. What holds: WritePacket returns true exactly if it returns no error, and then, if the writer keeps the contract of io.Writer, the whole frame was written; WriteAck returns no error only if both bytes of the ACK were written, whatever the writer; WaitTimeout returns an error exactly if the timer was first. QueryPacket looks at the errors only.)", "quantifier": "all packets, connections, writers (also such that break the contract of io.Writer), values of the channel, choices of select", "why_tests_cant": "The tests of the repository look at the errors of these functions only, with a few writers; the booleans are about every way a write can end.", "anchors": ["libcomfo/conn.go:WaitTimeout", "libcomfo/conn.go:WritePacket", "libcomfo/conn.go:WriteAck", "libcomfo/conn.go:QueryPacket"]}
